/-
Properties C82-C83: array-valued calls of the window and bolt calculations (as in docs/example.ipynb).
-/
import Verif.Lemmas.Vector
import Verif.Props.Window
import Verif.Props.Bolt

namespace Pypbomb

variable {n : ℕ} {reg : Registry}

namespace Window
open Quantity

theorem rel_minimumThickness_zero (L W P M : AIn n) (sf : NumIn) :
    Rel (Sim 0) (minimumThickness reg (L.elem 0) (W.elem 0) sf (P.elem 0) (M.elem 0))
      (minimumThicknessA reg L W sf P M) := by
  unfold minimumThickness minimumThicknessA
  refine (rel_parse L reg 0).bind fun _ _ h1 => (rel_parse W reg 0).bind fun _ _ h2 =>
    (rel_parse P reg 0).bind fun _ _ h3 => (rel_parse M reg 0).bind fun _ _ h4 =>
    (rel_check h1.toBase _ _).bind fun _ _ _ => (rel_check h2.toBase _ _).bind fun _ _ _ =>
    (rel_check h3.toBase _ _).bind fun _ _ _ => (rel_check h4.toBase _ _).bind fun _ _ _ => ?_
  cases sf with
  | num s =>
    simp only
    split
    · exact Or.inr rfl
    · exact rel_thicknessFormula h1.toBase h2.toBase s h3.toBase h4.toBase
  | str v => exact Or.inr rfl
  | other => exact Or.inr rfl

theorem rel_minimumThickness (L W P M : AIn n) (sf : NumIn) (i : Fin (n + 1)) :
    Rel2 (Sim i) (minimumThickness reg (L.elem i) (W.elem i) sf (P.elem i) (M.elem i))
      (minimumThicknessA reg L W sf P M) := by
  unfold minimumThickness minimumThicknessA
  refine (rel_parse L reg i).weaken.bind fun _ _ h1 => (rel_parse W reg i).weaken.bind fun _ _ h2 =>
    (rel_parse P reg i).weaken.bind fun _ _ h3 => (rel_parse M reg i).weaken.bind fun _ _ h4 =>
    Rel2.any.bind fun _ _ _ => Rel2.any.bind fun _ _ _ =>
    Rel2.any.bind fun _ _ _ => Rel2.any.bind fun _ _ _ => ?_
  cases sf with
  | num s =>
    simp only
    split
    · intro a b h; cases h
    · exact (rel_thicknessFormula h1.toBase h2.toBase s h3.toBase h4.toBase).weaken
  | str v => intro a b h; cases h
  | other => intro a b h; cases h

theorem rel_safetyFactor_zero (L W T P M : AIn n) :
    Rel (fun x v => v 0 = some x)
      (safetyFactor reg (L.elem 0) (W.elem 0) (T.elem 0) (P.elem 0) (M.elem 0))
      (safetyFactorA reg L W T P M) := by
  unfold safetyFactor safetyFactorA
  refine (rel_parse L reg 0).bind fun _ _ h1 => (rel_parse W reg 0).bind fun _ _ h2 =>
    (rel_parse T reg 0).bind fun _ _ h5 =>
    (rel_parse P reg 0).bind fun _ _ h3 => (rel_parse M reg 0).bind fun _ _ h4 =>
    (rel_check h1.toBase _ _).bind fun _ _ _ => (rel_check h2.toBase _ _).bind fun _ _ _ =>
    (rel_check h5.toBase _ _).bind fun _ _ _ =>
    (rel_check h3.toBase _ _).bind fun _ _ _ => (rel_check h4.toBase _ _).bind fun _ _ _ =>
    rel_safetyFactorFormula h1.toBase h2.toBase h5.toBase h3.toBase h4.toBase

theorem rel_safetyFactor (L W T P M : AIn n) (i : Fin (n + 1)) :
    Rel2 (fun x v => v i = some x)
      (safetyFactor reg (L.elem i) (W.elem i) (T.elem i) (P.elem i) (M.elem i))
      (safetyFactorA reg L W T P M) := by
  unfold safetyFactor safetyFactorA
  refine (rel_parse L reg i).weaken.bind fun _ _ h1 => (rel_parse W reg i).weaken.bind fun _ _ h2 =>
    (rel_parse T reg i).weaken.bind fun _ _ h5 =>
    (rel_parse P reg i).weaken.bind fun _ _ h3 => (rel_parse M reg i).weaken.bind fun _ _ h4 =>
    Rel2.any.bind fun _ _ _ => Rel2.any.bind fun _ _ _ => Rel2.any.bind fun _ _ _ =>
    Rel2.any.bind fun _ _ _ => Rel2.any.bind fun _ _ _ =>
    (rel_safetyFactorFormula h1.toBase h2.toBase h5.toBase h3.toBase h4.toBase).weaken

/-- C82: if every element on its own is a valid call, `minimum_thickness` on the arrays returns the
array of the element results (same unit, same registry). -/
theorem C82_minimum_thickness_elementwise {L W P M : AIn n} {sf : NumIn}
    {q : Fin (n + 1) → Quantity}
    (h : ∀ i, minimumThickness reg (L.elem i) (W.elem i) sf (P.elem i) (M.elem i) = .ok (q i)) :
    ∃ R, minimumThicknessA reg L W sf P M = .ok R ∧
      ∀ i, R.mag i = some (q i).mag ∧ R.unit = (q i).unit ∧ R.reg = (q i).reg := by
  have h0 := rel_minimumThickness_zero (reg := reg) L W P M sf
  rw [h 0] at h0
  obtain ⟨R, hR, -⟩ := h0
  refine ⟨R, hR, fun i => ?_⟩
  have := rel_minimumThickness L W P M sf i _ _ (h i) hR
  exact ⟨this.mag, this.unit, this.reg⟩

/-- C82: the same for `safety_factor`. -/
theorem C82_safety_factor_elementwise {L W T P M : AIn n} {x : Fin (n + 1) → ℝ}
    (h : ∀ i, safetyFactor reg (L.elem i) (W.elem i) (T.elem i) (P.elem i) (M.elem i) = .ok (x i)) :
    safetyFactorA reg L W T P M = .ok fun i => some (x i) := by
  have h0 := rel_safetyFactor_zero (reg := reg) L W T P M
  rw [h 0] at h0
  obtain ⟨R, hR, -⟩ := h0
  rw [hR]
  congr 1
  funext i
  exact rel_safetyFactor L W T P M i _ _ (h i) hR

/-- C82: whatever the other elements are, an element whose scalar call is valid gets its own result
whenever the array call returns at all: no element influences another. -/
theorem C82_elements_independent {L W T P M : AIn n} {sf : NumIn} (i : Fin (n + 1)) :
    (∀ R q, minimumThicknessA reg L W sf P M = .ok R →
      minimumThickness reg (L.elem i) (W.elem i) sf (P.elem i) (M.elem i) = .ok q →
      R.mag i = some q.mag ∧ R.unit = q.unit) ∧
    (∀ R x, safetyFactorA reg L W T P M = .ok R →
      safetyFactor reg (L.elem i) (W.elem i) (T.elem i) (P.elem i) (M.elem i) = .ok x →
      R i = some x) := by
  refine ⟨fun R q hR hq => ?_, fun R x hR hx => rel_safetyFactor L W T P M i _ _ hx hR⟩
  have := rel_minimumThickness L W P M sf i _ _ hq hR
  exact ⟨this.mag, this.unit⟩

/-- C83: what is wrong with the first elements is reported exactly as in the scalar call. -/
theorem C83_first_element_errors {L W T P M : AIn n} {sf : NumIn} {e : PyErr}
    (he : e ≠ .zeroDivision ∧ e ≠ .nonReal) :
    (minimumThickness reg (L.elem 0) (W.elem 0) sf (P.elem 0) (M.elem 0) = .error e →
      minimumThicknessA reg L W sf P M = .error e) ∧
    (safetyFactor reg (L.elem 0) (W.elem 0) (T.elem 0) (P.elem 0) (M.elem 0) = .error e →
      safetyFactorA reg L W T P M = .error e) := by
  constructor
  · intro h
    have h0 := rel_minimumThickness_zero (reg := reg) L W P M sf
    rw [h] at h0
    rcases h0 with (h0 | h0) | h0
    · exact absurd h0 he.1
    · exact absurd h0 he.2
    · exact h0
  · intro h
    have h0 := rel_safetyFactor_zero (reg := reg) L W T P M
    rw [h] at h0
    rcases h0 with (h0 | h0) | h0
    · exact absurd h0 he.1
    · exact absurd h0 he.2
    · exact h0

/-- An array argument all of whose elements denote quantities of dimension `d`. -/
theorem parseA_denotes {X : AIn n} {d : Dim} {v : Fin (n + 1) → ℝ}
    (h : ∀ i, Denotes reg (X.elem i) d (v i)) :
    ∃ A, parseA X reg = .ok A ∧ ∀ i, ∃ q, Sim i q A.toBase ∧ HasVal q d (v i) reg.id := by
  obtain ⟨q0, h1, -⟩ := parse_any (h 0)
  have h0 := rel_parse X reg 0
  rw [h1] at h0
  obtain ⟨A, hA, -⟩ := h0
  refine ⟨A, hA, fun i => ?_⟩
  obtain ⟨q, h1, h2, h3, h4⟩ := parse_any (h i)
  have hb := toBase_hasVal q
  rw [h2, h3, h4] at hb
  exact ⟨q.toBase, ((rel_parse X reg i).weaken _ _ h1 hA).toBase, hb⟩

theorem checkA_first {A : QArr n} {q : Quantity} {d : Dim} {v : ℝ} {r : ℕ} {kind : String}
    (hk : supportedDims.lookup kind = some d) (hs : Sim 0 q A) (hq : HasVal q d v r) (hv : 0 ≤ v) :
    checkA A kind true = .ok () := by
  have := rel_check hs kind true
  rw [checkQ_ok hk hq.dim (by rw [hq.phys]; exact hv)] at this
  obtain ⟨⟨⟩, h, -⟩ := this
  exact h

theorem checkA_first_neg {A : QArr n} {q : Quantity} {d : Dim} {v : ℝ} {r : ℕ} {kind : String}
    (hk : supportedDims.lookup kind = some d) (hs : Sim 0 q A) (hq : HasVal q d v r) (hv : v < 0) :
    checkA A kind true = .error (.valueError "Input value < 0") := by
  have := rel_check hs kind true
  rw [checkQ_eq q kind true hk, if_pos ⟨rfl, by rw [hq.phys]; exact hv⟩] at this
  rcases this with h | h
  · rcases h with h | h <;> cases h
  · exact h

variable {L W P M : AIn n} {l w p m : Fin (n + 1) → ℝ}

/-- C83, what the array call does in general: only the signs of the first elements are examined.  With
those non-negative, every element gets the formula's value, whatever the sign of its length and width. -/
theorem C83_minimum_thickness_value_partial {s : ℝ}
    (hL : ∀ i, Denotes reg (L.elem i) Dim.length (l i))
    (hW : ∀ i, Denotes reg (W.elem i) Dim.length (w i))
    (hP : ∀ i, Denotes reg (P.elem i) Dim.pressure (p i))
    (hM : ∀ i, Denotes reg (M.elem i) Dim.pressure (m i))
    (l0 : 0 ≤ l 0) (w0 : 0 ≤ w 0) (hs : 1 ≤ s)
    (w1 : ∀ i, w i ≠ 0) (p1 : ∀ i, 0 ≤ p i) (m1 : ∀ i, 0 < m i) :
    ∃ R, minimumThicknessA reg L W (.num s) P M = .ok R ∧ R.unit = PUnit.meter ∧ R.reg = reg.id ∧
      ∀ i, R.mag i = some (Real.sqrt (3 * s / 8) * l i *
        Real.sqrt (p i / (m i * (1 + (l i / w i) ^ 2)))) := by
  obtain ⟨A1, e1, f1⟩ := parseA_denotes hL
  obtain ⟨A2, e2, f2⟩ := parseA_denotes hW
  obtain ⟨A3, e3, f3⟩ := parseA_denotes hP
  obtain ⟨A4, e4, f4⟩ := parseA_denotes hM
  have k : minimumThicknessA reg L W (.num s) P M =
      thicknessFormulaA A1.toBase A2.toBase s A3.toBase A4.toBase := by
    obtain ⟨q1, s1, v1⟩ := f1 0
    obtain ⟨q2, s2, v2⟩ := f2 0
    obtain ⟨q3, s3, v3⟩ := f3 0
    obtain ⟨q4, s4, v4⟩ := f4 0
    simp only [minimumThicknessA, e1, e2, e3, e4, ok_bind, checkA_first lookup_length s1 v1 l0,
      checkA_first lookup_length s2 v2 w0, checkA_first lookup_pressure s3 v3 (p1 0),
      checkA_first lookup_pressure s4 v4 (m1 0).le, if_neg (not_lt.mpr hs)]
  have hi : ∀ i, ∃ c R, thicknessFormulaA A1.toBase A2.toBase s A3.toBase A4.toBase = .ok R ∧
      Sim i c R ∧ c.unit = A2.toBase.unit ∧ HasVal c Dim.length (Real.sqrt (s * 0.75 / 2) * l i *
        Real.sqrt (p i / (m i * (1 + (l i / w i) ^ 2)))) reg.id := by
    intro i
    obtain ⟨q1, s1, v1⟩ := f1 i
    obtain ⟨q2, s2, v2⟩ := f2 i
    obtain ⟨q3, s3, v3⟩ := f3 i
    obtain ⟨q4, s4, v4⟩ := f4 i
    obtain ⟨c, hc, hu, hv⟩ := thicknessFormula_eval v1 v2 v3 v4 s (w1 i) (p1 i) (m1 i)
    have := rel_thicknessFormula s1 s2 s s3 s4
    rw [hc] at this
    obtain ⟨R, hR, hs⟩ := this
    exact ⟨c, R, hR, hs, by rw [hu, s2.unit], hv⟩
  have hA2 : A2.toBase.unit = PUnit.meter := by
    obtain ⟨q2, s2, v2⟩ := f2 0
    have := v2.dim
    rw [← s2.unit] at this
    simp only [QArr.toBase, PUnit.base] at this ⊢
    rw [this]; rfl
  obtain ⟨c, R, hR, hs0, hu, hv⟩ := hi 0
  refine ⟨R, k.trans hR, by rw [hs0.unit, hu, hA2], by rw [hs0.reg, hv.reg], fun i => ?_⟩
  obtain ⟨c', R', hR', hs', hu', hv'⟩ := hi i
  rw [hR] at hR'
  cases hR'
  rw [hs'.mag]
  have := hv'.val
  rw [hu', hA2] at this
  simp only [PUnit.meter, PUnit.base, mul_one] at this
  rw [this, show s * 0.75 / 2 = 3 * s / 8 by ring]

/-- C83: a negative first length or width is refused with ValueError, as in the scalar call. -/
theorem C83_first_negative_refused {sf : NumIn}
    (hL : ∀ i, Denotes reg (L.elem i) Dim.length (l i))
    (hW : ∀ i, Denotes reg (W.elem i) Dim.length (w i))
    (hP : ∀ i, Denotes reg (P.elem i) Dim.pressure (p i))
    (hM : ∀ i, Denotes reg (M.elem i) Dim.pressure (m i))
    (h : l 0 < 0 ∨ w 0 < 0) : IsValueError (minimumThicknessA reg L W sf P M) := by
  obtain ⟨A1, e1, f1⟩ := parseA_denotes hL
  obtain ⟨A2, e2, f2⟩ := parseA_denotes hW
  obtain ⟨A3, e3, f3⟩ := parseA_denotes hP
  obtain ⟨A4, e4, f4⟩ := parseA_denotes hM
  obtain ⟨q1, s1, v1⟩ := f1 0
  obtain ⟨q2, s2, v2⟩ := f2 0
  by_cases hl : l 0 < 0
  · refine ⟨"Input value < 0", ?_⟩
    simp only [minimumThicknessA, e1, e2, e3, e4, ok_bind, checkA_first_neg lookup_length s1 v1 hl,
      err_bind]
  · refine ⟨"Input value < 0", ?_⟩
    simp only [minimumThicknessA, e1, e2, e3, e4, ok_bind,
      checkA_first lookup_length s1 v1 (not_lt.mp hl),
      checkA_first_neg lookup_length s2 v2 (h.resolve_left hl), err_bind]

/-- C83 fails beyond the first element ("every value is checked"): in any otherwise valid array call, an
element `i ≥ 1` with a negative width is refused by the scalar call with ValueError, yet the array call
returns, and gives that element the thickness of a window as wide as the absolute value. -/
theorem C83_later_elements_unchecked_violated {s : ℝ} {i : Fin (n + 1)}
    (hL : ∀ i, Denotes reg (L.elem i) Dim.length (l i))
    (hW : ∀ i, Denotes reg (W.elem i) Dim.length (w i))
    (hP : ∀ i, Denotes reg (P.elem i) Dim.pressure (p i))
    (hM : ∀ i, Denotes reg (M.elem i) Dim.pressure (m i))
    (l0 : ∀ i, 0 ≤ l i) (w0 : 0 < w 0) (hs : 1 ≤ s)
    (w1 : ∀ i, w i ≠ 0) (p1 : ∀ i, 0 ≤ p i) (m1 : ∀ i, 0 < m i) (hi : w i < 0) :
    IsValueError (minimumThickness reg (L.elem i) (W.elem i) (.num s) (P.elem i) (M.elem i)) ∧
    ∃ R T, minimumThicknessA reg L W (.num s) P M = .ok R ∧
      minimumThickness reg (L.elem i) (.quantity ⟨|w i|, PUnit.meter, reg.id⟩) (.num s) (P.elem i)
        (M.elem i) = .ok T ∧ R.mag i = some T.mag ∧ R.unit = T.unit := by
  constructor
  · obtain ⟨q1, p1, c1, -⟩ := base_parse lookup_length (hL i) (l0 i)
    obtain ⟨q2, a1, a2, a3, a4⟩ := parse_any (hW i)
    obtain ⟨q3, b1, -⟩ := parse_any (hP i)
    obtain ⟨q4, c1', -⟩ := parse_any (hM i)
    have hb := toBase_hasVal q2
    refine ⟨"Input value < 0", ?_⟩
    simp only [minimumThickness, p1, a1, b1, c1', ok_bind, c1,
      checkQ_eq q2.toBase "length" true lookup_length]
    rw [if_pos ⟨trivial, by rw [hb.phys, a3]; exact hi⟩, err_bind]
  · obtain ⟨R, hR, hu, -, hv⟩ :=
      C83_minimum_thickness_value_partial hL hW hP hM (l0 0) w0.le hs w1 p1 m1
    obtain ⟨T, hT, hTu, hTv⟩ := minimumThickness_eval (reg := reg)
      (xW := .quantity ⟨|w i|, PUnit.meter, reg.id⟩) (hL i)
      (W := |w i|) ⟨rfl, by simp [PUnit.meter, PUnit.base]⟩ (hP i) (hM i) (l0 i)
      (abs_pos.mpr (w1 i)) (p1 i) (m1 i) hs
    refine ⟨R, T, hR, hT, ?_, by rw [hu, hTu]⟩
    have := hTv.val
    rw [hTu] at this
    simp only [PUnit.meter, PUnit.base, mul_one] at this
    rw [hv i, this, show s * 0.75 / 2 = 3 * s / 8 by ring, div_pow, div_pow, sq_abs]

/-- Widths of 0.25, 3.5 and -7 inch, as a pint quantity. -/
noncomputable def exWidths : AIn 2 := .quantity ![0.25, 3.5, -7] PUnit.inch 9

/-- Hypotheses of C82 and C83 are met by three widths (the last one negative), one height, pressure and
modulus. -/
example : (∀ i, Denotes exReg ((AIn.scalar (n := 2) (.pair 1 "m")).elem i) Dim.length 1) ∧
    (∀ i, Denotes exReg (exWidths.elem i) Dim.length (![0.00635, 0.0889, -0.1778] i)) ∧
    (∀ i, Denotes exReg ((AIn.scalar (n := 2) (.quantity ⟨10, PUnit.bar, 5⟩)).elem i) Dim.pressure
      1000000) ∧
    (∀ i, Denotes exReg ((AIn.scalar (n := 2) (.quantity ⟨0.197, PUnit.gigapascal, 5⟩)).elem i)
      Dim.pressure 197000000) ∧ (![0.00635, 0.0889, -0.1778] : Fin 3 → ℝ) 2 < 0 := by
  refine ⟨fun _ => ⟨PUnit.meter, rfl, rfl, ?_⟩, fun i => ⟨rfl, ?_⟩, fun _ => ⟨rfl, ?_⟩,
    fun _ => ⟨rfl, ?_⟩, ?_⟩
  · norm_num [PUnit.meter, PUnit.base]
  · fin_cases i <;> norm_num [PUnit.inch]
  · norm_num [PUnit.bar]
  · norm_num [PUnit.gigapascal]
  · simp only [Matrix.cons_val]; norm_num

end Window

namespace Bolt
open Quantity

variable {P A : AIn n} {k : Fin (n + 1) → ℝ} {size cls : String} {xb xp xL : QIn}

/-- The lines of `safetyFactorsA` after parsing and checking correspond to the scalar ones. -/
theorem rel_factors {i : Fin (n + 1)} {qp qa sb sp len : Quantity} {ap aa : QArr n}
    (hp : Sim i qp ap) (ha : Sim i qa aa) :
    Rel (fun (x : ℝ × ℝ) v => v.1 i = some x.1 ∧ v.2 i = some x.2)
      (do
        let dp ← qp.sub ⟨1, PUnit.atm, reg.id⟩
        let f ← dp.mul qa
        let f ← f.divNum (k i)
        let thread ← stressAreas reg size cls (.quantity sb) (.quantity sp) (.quantity len)
        let screw := rereg reg thread.screw
        let plate := rereg reg thread.plate
        let s1 ← f.div screw
        let b ← sb.div s1
        let b ← b.toNumber
        let s2 ← f.div plate
        let pl ← sp.div s2
        let pl ← pl.toNumber
        .ok (b, pl))
      (do
        let dp ← ap.sub (QArr.const n ⟨1, PUnit.atm, reg.id⟩)
        let f ← dp.mul aa
        let f ← f.divNums k
        let thread ← stressAreas reg size cls (.quantity sb) (.quantity sp) (.quantity len)
        let screw := rereg reg thread.screw
        let plate := rereg reg thread.plate
        let s1 ← f.div (QArr.const n screw)
        let b ← (QArr.const n sb).div s1
        let b ← b.toNumbers
        let s2 ← f.div (QArr.const n plate)
        let pl ← (QArr.const n sp).div s2
        let pl ← pl.toNumbers
        .ok (b, pl)) := by
  refine (rel_sub hp (sim_const _)).bind fun _ _ h1 => (rel_mul h1 ha).bind fun _ _ h2 =>
    (rel_divNums k h2).bind fun _ _ h3 => (Rel.refl _).bind fun t t' ht => ?_
  subst ht
  refine (rel_div h3 (sim_const _)).bind fun _ _ h4 => (rel_div (sim_const _) h4).bind fun _ _ h5 =>
    (rel_toNumbers h5).bind fun _ _ h6 => (rel_div h3 (sim_const _)).bind fun _ _ h7 =>
    (rel_div (sim_const _) h7).bind fun _ _ h8 => (rel_toNumbers h8).bind fun _ _ h9 =>
    Rel.ok ⟨h6, h9⟩

theorem rel_safetyFactors_zero :
    Rel (fun (x : ℝ × ℝ) v => v.1 0 = some x.1 ∧ v.2 0 = some x.2)
      (safetyFactors reg (P.elem 0) (A.elem 0) (k 0) size cls xb xp xL)
      (safetyFactorsA reg P A k size cls xb xp xL) := by
  unfold safetyFactors safetyFactorsA
  refine (rel_parse P reg 0).bind fun _ _ h1 => (rel_parse A reg 0).bind fun _ _ h2 =>
    (Rel.refl _).bind fun sb _ e1 => (Rel.refl _).bind fun sp _ e2 =>
    (Rel.refl _).bind fun len _ e3 => ?_
  subst e1 e2 e3
  refine (rel_check h1 _ _).bind fun _ _ _ => (rel_check h2 _ _).bind fun _ _ _ =>
    (Rel.refl _).bind fun _ _ _ => (Rel.refl _).bind fun _ _ _ => (Rel.refl _).bind fun _ _ _ =>
    rel_factors h1 h2

theorem rel_safetyFactors (i : Fin (n + 1)) :
    Rel2 (fun (x : ℝ × ℝ) v => v.1 i = some x.1 ∧ v.2 i = some x.2)
      (safetyFactors reg (P.elem i) (A.elem i) (k i) size cls xb xp xL)
      (safetyFactorsA reg P A k size cls xb xp xL) := by
  unfold safetyFactors safetyFactorsA
  refine (rel_parse P reg i).weaken.bind fun _ _ h1 => (rel_parse A reg i).weaken.bind fun _ _ h2 =>
    (Rel.refl _).weaken.bind fun sb _ e1 => (Rel.refl _).weaken.bind fun sp _ e2 =>
    (Rel.refl _).weaken.bind fun len _ e3 => ?_
  subst e1 e2 e3
  refine Rel2.any.bind fun _ _ _ => Rel2.any.bind fun _ _ _ => Rel2.any.bind fun _ _ _ =>
    Rel2.any.bind fun _ _ _ => Rel2.any.bind fun _ _ _ => (rel_factors h1 h2).weaken

/-- C82: if every element on its own is a valid call, `calculate_safety_factors` with arrays of
pressures, areas and bolt counts returns the two arrays of the element results. -/
theorem C82_bolt_factors_elementwise {x : Fin (n + 1) → ℝ × ℝ}
    (h : ∀ i, safetyFactors reg (P.elem i) (A.elem i) (k i) size cls xb xp xL = .ok (x i)) :
    safetyFactorsA reg P A k size cls xb xp xL =
      .ok (fun i => some (x i).1, fun i => some (x i).2) := by
  have h0 := rel_safetyFactors_zero (reg := reg) (P := P) (A := A) (k := k) (size := size)
    (cls := cls) (xb := xb) (xp := xp) (xL := xL)
  rw [h 0] at h0
  obtain ⟨R, hR, -⟩ := h0
  rw [hR]
  congr 1
  refine Prod.ext (funext fun i => ?_) (funext fun i => ?_)
  · exact (rel_safetyFactors i _ _ (h i) hR).1
  · exact (rel_safetyFactors i _ _ (h i) hR).2

/-- C82, the documentation's plot of bolt and plate factors against the number of bolts: the two curves
are straight lines through the origin. -/
theorem C82_bolt_counts_linear {t : Thread} {xP xA : QIn} {Pv Av sb sp L : ℝ}
    (ht : Tabulated size cls t)
    (hP : DenotesM reg xP Dim.pressure Pv) (hA : DenotesM reg xA Dim.area Av)
    (hb : DenotesM reg xb Dim.pressure (sb * psiPa))
    (hp : DenotesM reg xp Dim.pressure (sp * psiPa))
    (hL : DenotesM reg xL Dim.length (L * 0.0254))
    (P0 : 0 ≤ Pv) (hP1 : Pv ≠ 101325) (A0 : 0 < Av) (sb0 : 0 ≤ sb) (sp0 : 0 < sp) (L0 : 0 < L)
    (k0 : ∀ i, k i ≠ 0) :
    ∃ b p, safetyFactors reg xP xA 1 size cls xb xp xL = .ok (b, p) ∧
      safetyFactorsA reg (.scalar xP) (.scalar xA) k size cls xb xp xL =
        .ok (fun i => some (k i * b), fun i => some (k i * p)) := by
  refine ⟨_, _, C24_safety_factors ht hP hA hb hp hL P0 hP1 A0 sb0 sp0 L0 one_ne_zero, ?_⟩
  rw [C82_bolt_factors_elementwise fun i =>
    C24_safety_factors ht hP hA hb hp hL P0 hP1 A0 sb0 sp0 L0 (k0 i)]
  congr 1
  refine Prod.ext (funext fun i => ?_) (funext fun i => ?_) <;>
  · simp only
    congr 1
    ring

/-- The bolt counts 1, ..., 24 of the documentation meet the hypothesis on `k`. -/
example : ∀ i : Fin 24, ((i : ℕ) + 1 : ℝ) ≠ 0 := fun i => by positivity

end Bolt
end Pypbomb
