/-
Rounding in the flange lookups (C112): what floating-point arithmetic does to the rating at a temperature and to
the choice of the flange class.
-/
import Verif.Props.RoundedLookup

namespace Pypbomb.Flange
open Quantity

variable {fp : FP} {ε : ℝ} {κ : ℕ} {u reg : Registry} {material cls c : String} {curve : List (ℝ × ℝ)} {x y : QIn}
  {t p : ℝ}

/-! ### Exact arithmetic -/

theorem segR_exact (x : ℝ) {a b : ℝ × ℝ} (h : a.1 ≠ b.1) :
    segR FP.exact x a b = a.2 + (b.2 - a.2) / (b.1 - a.1) * (x - a.1) := by
  have hne : b.1 - a.1 ≠ 0 := sub_ne_zero.mpr h.symm
  simp only [segR, FP.exact]
  field_simp
  ring

theorem slinearR_exact (x : ℝ) (l : List (ℝ × ℝ)) : slinearR FP.exact x l = slinear x l := by
  induction l with
  | nil => rfl
  | cons a l ih =>
    cases l with
    | nil => rfl
    | cons b l =>
      simp only [slinearR, slinear, ih]
      split
      · split
        · rfl
        · rename_i h; exact segR_exact x h
      · rfl

theorem lessR_exact (a b : Quantity) : a.lessR FP.exact b = a.lt b := by
  have ps := a.unit.pos
  simp only [lessR, Quantity.lt, baseR_exact]
  cases sameReg a b with
  | error => rfl
  | ok =>
    simp only [ok_bind]
    by_cases h : a.unit = b.unit
    · rw [if_pos h, if_pos (by rw [h])]
      congr 2
      rw [phys, phys, ← h, eq_iff_iff]
      constructor <;> intro h2
      · nlinarith
      · by_contra h3
        have := mul_le_mul_of_nonneg_right (not_lt.mp h3) ps.le
        linarith
    · rw [if_neg h]

theorem roundFrame_exact (f : Frame) : roundFrame FP.exact f = f := by
  have e : (FP.exact.rnd) = id := rfl
  simp only [roundFrame, e, id, List.map_id', List.map_id]

theorem withLimitsR_exact {α : Type} (f : List (String × Frame) → Py α) : withLimitsR FP.exact f = withLimits f := by
  simp only [withLimitsR, withLimits, roundFrame_exact, Prod.mk.eta, List.map_id']

theorem checkBaseR_exact (q : Quantity) (kind : String) : checkBaseR FP.exact q kind = checkQ q kind true := by
  simp only [checkBaseR, checkQ, checkPintQuantity, Quantity.toObj, baseR_exact, ok_bind, PUnit.base, mul_one, add_zero,
    phys]

/-- With exact arithmetic the rounded flange functions are the flange functions. -/
theorem C112_exact (u reg : Registry) (x y : QIn) (cls : String) (m : Tube.MatIn) :
    getClassR FP.exact u reg x y m = getClass u reg x y m ∧
      getMaxPressureR FP.exact u cls y m = getMaxPressure u cls y m ∧
      getMaxTemperatureR FP.exact u cls x m = getMaxTemperature u cls x m := by
  have e1 : ∀ f c, curveSIR FP.exact f c = curveSI f c := fun f c => by
    simp only [curveSIR, curveSI, baseR_exact]
  have e2 : ∀ x l, interpolateR FP.exact x l = interpolate x l := fun x l => slinearR_exact x _
  refine ⟨?_, ?_, ?_⟩
  · simp only [getClassR, getClass, withLimitsR_exact, checkBaseR_exact, checkMaxPressureR, checkMaxPressure, lessR_exact,
      checkRangeR, checkRange, firstClassR, firstClass, e1, e2, baseR_exact]
    rfl
  · simp only [getMaxPressureR, getMaxPressure, withLimitsR_exact, lessR_exact, checkRangeR, checkRange, e1, e2,
      baseR_exact]
  · simp only [getMaxTemperatureR, getMaxTemperature, withLimitsR_exact, lessR_exact, checkRangeR, checkRange, e1, e2,
      baseR_exact]

/-! ### One segment -/

/-- The computed value between two points is the exact one up to `n + 6` roundings, if the ordinates are right up to
`n`. -/
theorem segR_near (H : fp.Accurate ε κ) {n : ℕ} {x : ℝ} {a b : ℝ × ℝ} {ya yb : ℝ} (hab : a.1 < b.1) (h1 : a.1 ≤ x)
    (h2 : x ≤ b.1) (a0 : 0 ≤ ya) (b0 : 0 ≤ yb) (ha : Near ε n ya a.2) (hb : Near ε n yb b.2) :
    Near ε (n + 6) (ya + (yb - ya) * ((x - a.1) / (b.1 - a.1))) (segR fp x a b) := by
  have h0 := H.nonneg; have hl := H.lt_one
  have hpos : 0 < b.1 - a.1 := sub_pos.mpr hab
  have w := H.round (Near.div h0 hl (Near.refl ε 1) (H.round (Near.refl ε (b.1 - a.1))))
  have ta := H.round (Near.mul h0 hl w (H.round (Near.refl ε (b.1 - x))))
  have tb := H.round (Near.mul h0 hl w (H.round (Near.refl ε (x - a.1))))
  have pa := H.round (Near.mul h0 hl ha ta)
  have pb := H.round (Near.mul h0 hl hb tb)
  have ka : 0 ≤ 1 / (b.1 - a.1) * (b.1 - x) := mul_nonneg (by positivity) (sub_nonneg.mpr h2)
  have kb : 0 ≤ 1 / (b.1 - a.1) * (x - a.1) := mul_nonneg (by positivity) (sub_nonneg.mpr h1)
  have sm := H.round (Near.add h0 hl (mul_nonneg a0 ka) (mul_nonneg b0 kb) pa pb)
  have e : ya * (1 / (b.1 - a.1) * (b.1 - x)) + yb * (1 / (b.1 - a.1) * (x - a.1)) =
      ya + (yb - ya) * ((x - a.1) / (b.1 - a.1)) := by
    field_simp; ring
  rw [e] at sm
  exact Near.mono h0 hl (by omega) sm

/-- On increasing points, from the first to the last, the computed value is that of a segment around `x`, the same one
for all ordinates. -/
theorem slinearR_seg {α : Type} {k : α → ℝ} {x : ℝ} {l : List α} (h : l.Pairwise fun a b => k a < k b)
    (hlen : 2 ≤ l.length) {a b : α} (ha : a ∈ l) (hb : b ∈ l) (h1 : k a ≤ x) (h2 : x ≤ k b) :
    ∃ pre c d suf, l = pre ++ c :: d :: suf ∧ k c ≤ x ∧ x ≤ k d ∧ k c < k d ∧
      ∀ g : α → ℝ, slinearR fp x (l.map fun a => (k a, g a)) = segR fp x (k c, g c) (k d, g d) := by
  induction l generalizing a with
  | nil => simp at ha
  | cons e l ih =>
    cases l with
    | nil => simp at hlen
    | cons d l =>
      have hed : k e < k d := List.rel_of_pairwise_cons h List.mem_cons_self
      have he : k e ≤ x := by
        rcases List.mem_cons.mp ha with rfl | ha
        · exact h1
        · exact (List.rel_of_pairwise_cons h ha).le.trans h1
      by_cases hc : x < k d ∨ l = []
      · refine ⟨[], e, d, l, rfl, he, ?_, hed, ?_⟩
        · rcases hc with hc | rfl
          · exact hc.le
          · rcases List.mem_cons.mp hb with rfl | hb
            · exact h2.trans hed.le
            · simp only [List.mem_singleton] at hb; subst hb; exact h2
        · intro g
          simp only [List.map_cons, slinearR]
          rw [if_pos (by rwa [List.map_eq_nil_iff]), if_neg hed.ne]
      · rw [not_or, not_lt] at hc
        have hb' : b ∈ d :: l := by
          rcases List.mem_cons.mp hb with rfl | hb
          · have := hc.1; linarith
          · exact hb
        have hlen' : 2 ≤ (d :: l).length := by
          cases l with
          | nil => exact absurd rfl hc.2
          | cons => simp
        obtain ⟨pre, c, d', suf, e1, e2, e3, e4, e5⟩ := ih h.of_cons hlen' List.mem_cons_self hb' hc.1
        refine ⟨e :: pre, c, d', suf, by rw [e1]; rfl, e2, e3, e4, fun g => ?_⟩
        rw [← e5 g]
        simp only [List.map_cons, slinearR]
        rw [if_neg (by rw [not_or, not_lt, List.map_eq_nil_iff]; exact hc)]

/-! ### The rounded tables -/

/-- The abscissa of a table row in kelvin, as computed. -/
noncomputable def knot (fp : FP) (n : ℝ) : ℝ := (⟨fp.rnd n, PUnit.degC, 0⟩ : Quantity).baseR fp
/-- The rating of a table row in pascal, as computed. -/
noncomputable def rate (fp : FP) (p : ℝ) : ℝ := (⟨fp.rnd p, PUnit.bar, 0⟩ : Quantity).baseR fp

theorem withLimitsR_eq {α : Type} (f : List (String × Frame) → Py α) :
    withLimitsR fp f = f (ratingTables.map fun tb => (tb.1, roundFrame fp (frameOf tb.2))) := by
  simp only [withLimitsR, load_shipped, ok_bind, List.map_map]
  rfl

theorem lookupGroupR_eq {tb : String × List String × List (Int × List (Option Nat))} (h : IsTable material tb) :
    lookupGroup (ratingTables.map fun tb => (tb.1, roundFrame fp (frameOf tb.2))) (.str material) =
      .ok (tb.1, roundFrame fp (frameOf tb.2)) := by
  obtain ⟨ht, row, hr, rfl, he⟩ := h
  have key : ∀ r ∈ Data.materialRows,
      Data.materialRows.filter (fun x => decide (x.1 = r.1)) = [r] := by decide +kernel
  have hf := key row hr
  have h1 : checkMaterial (.str row.1) = .ok () := by
    simp only [checkMaterial]
    rw [if_pos]
    exact List.mem_map.mpr ⟨row, hr, rfl⟩
  have h2 : Tube.materialRow (.str row.1) = .ok row := by
    unfold Tube.materialRow
    simp only at hf ⊢
    rw [hf]
  have h3 : (ratingTables.map fun tb => (tb.1, roundFrame fp (frameOf tb.2))).lookup row.2.1 =
      some (roundFrame fp (frameOf tb.2)) := by
    rw [lookup_iff_mem]
    · exact List.mem_map.mpr ⟨tb, ht, by rw [he]⟩
    · have : (ratingTables.map (·.1)).Nodup := by decide +kernel
      simp only [List.map_map]
      exact this
  simp only [lookupGroup, groupFrame, h1, h2, h3, ok_bind]
  rw [he]

theorem lookup_cellR {tb : String × List String × List (Int × List (Option Nat))}
    (ht : tb ∈ ratingTables) {i : ℕ} (hi : tb.2.1[i]? = some cls) {r : Int × List (Option Nat)} (hr : r ∈ tb.2.2) :
    (tb.2.1.zip ((r.2.map fun c => ((c.getD 0 : ℕ) : ℝ) / 10).map fp.rnd)).lookup cls =
      some (fp.rnd (cellBar i r)) := by
  have hlt : i < 7 := by
    have := (List.getElem?_eq_some_iff.mp hi).1
    rw [table_cols tb ht] at this
    exact this
  have hl := table_len tb ht r hr
  obtain ⟨c, hc⟩ : ∃ c, r.2[i]? = some c := by
    rw [← hl] at hlt
    exact ⟨_, List.getElem?_eq_getElem hlt⟩
  apply zip_lookup _ hi
  · rw [List.getElem?_map, List.getElem?_map, hc, cellBar, hc]; rfl
  · rw [table_cols tb ht]; exact classes_nodup

theorem curveSIR_eq {tb : String × List String × List (Int × List (Option Nat))}
    (ht : tb ∈ ratingTables) {i : ℕ} (hi : tb.2.1[i]? = some cls) :
    curveSIR fp (roundFrame fp (frameOf tb.2)) cls = (curveOf i tb.2.2).map fun a => (knot fp a.1, rate fp a.2) := by
  unfold curveSIR roundFrame frameOf curveOf
  simp only [List.map_map, List.filterMap_map]
  apply filterMap_eq_map'
  intro r hr
  simp only [Function.comp, lookup_cellR ht hi hr, Option.map_some]
  rfl

theorem tempsR_eq (tb : String × List String × List (Int × List (Option Nat))) (i : ℕ) :
    (roundFrame fp (frameOf tb.2)).rows.map (·.1) = (curveOf i tb.2.2).map fun a => fp.rnd a.1 := by
  unfold roundFrame frameOf curveOf
  simp only [List.map_map, Function.comp_def]

theorem colBarR_eq {tb : String × List String × List (Int × List (Option Nat))}
    (ht : tb ∈ ratingTables) {i : ℕ} (hi : tb.2.1[i]? = some cls) :
    colBar (roundFrame fp (frameOf tb.2)) cls = (curveOf i tb.2.2).map fun a => fp.rnd a.2 := by
  unfold colBar roundFrame frameOf curveOf
  simp only [List.map_map, List.filterMap_map]
  apply filterMap_eq_map'
  intro r hr
  simp only [Function.comp, lookup_cellR ht hi hr]

/-- Temperatures of the tables: whole numbers between -29 and 816. -/
theorem table_temps : ∀ tb ∈ ratingTables, ∀ r ∈ tb.2.2, -29 ≤ r.1 ∧ r.1 ≤ 816 := by decide +kernel

theorem curve_temp {tb : String × List String × List (Int × List (Option Nat))} (ht : tb ∈ ratingTables) {i : ℕ}
    {a : ℝ × ℝ} (ha : a ∈ curveOf i tb.2.2) : -29 ≤ a.1 ∧ a.1 ≤ 816 ∧ ∃ n : ℤ, a.1 = n := by
  obtain ⟨r, hr, rfl⟩ := List.mem_map.mp ha
  obtain ⟨h1, h2⟩ := table_temps tb ht r hr
  have h1 : ((-29 : ℤ) : ℝ) ≤ r.1 := by exact_mod_cast h1
  have h2 : (r.1 : ℝ) ≤ 816 := by exact_mod_cast h2
  exact ⟨by simpa using h1, h2, r.1, rfl⟩

theorem knot_err (H : fp.Accurate ε κ) (hu : (κ + 10) * ε ≤ 1 / 100000) {n : ℝ} (h1 : -29 ≤ n) (h2 : n ≤ 816) :
    |knot fp n - (n + 27315 / 100)| ≤ 2040 * (κ * ε) + 5220 * ε := by
  have e0 := H.nonneg
  have κ0 : (0 : ℝ) ≤ κ := Nat.cast_nonneg κ
  have ke : 0 ≤ κ * ε := mul_nonneg κ0 e0
  have r := H.rnd_le (z := n) (a := 816) (by rw [abs_le]; constructor <;> linarith)
  have e1 : ε ≤ 1 / 1000000 := by nlinarith
  rw [abs_le] at r
  have b := baseR_err H (hu.trans (by norm_num)) (q := ⟨fp.rnd n, PUnit.degC, 0⟩) (K := fp.rnd n + 27315 / 100)
    (by simp [phys, PUnit.degC]) (by linarith [r.1]) (by linarith [r.2]) (by simp only [PUnit.degC]; norm_num)
    (by simp only [PUnit.degC]; norm_num)
  rw [abs_le] at b ⊢
  unfold knot
  constructor <;> linarith [r.1, r.2, b.1, b.2]

theorem rate_near (H : fp.Accurate ε κ) (p : ℝ) : Near ε (κ + 2) (p * 100000) (rate fp p) := by
  have h0 := H.nonneg; have hl := H.lt_one
  have hne : PUnit.bar ≠ PUnit.base PUnit.bar.dim := by
    intro h
    have := congrArg PUnit.scale h
    simp [PUnit.bar, PUnit.base] at this
  have ho : PUnit.bar.offset = 0 := rfl
  simp only [rate, baseR]
  rw [if_neg hne, if_pos ho]
  have hc := H.conv PUnit.bar (PUnit.base PUnit.bar.dim) rfl
  have h1 := H.round (Near.mul h0 hl (H.round (Near.refl ε p)) hc)
  rw [show p * (PUnit.bar.scale / (PUnit.base PUnit.bar.dim).scale) = p * 100000 by simp [PUnit.bar, PUnit.base]] at h1
  exact Near.mono h0 hl (by omega) h1

/-- The temperatures of a table increase. -/
theorem table_inc : ∀ tb ∈ ratingTables, tb.2.2.Pairwise fun a b => a.1 < b.1 := by decide +kernel

theorem inc_knots (H : fp.Accurate ε κ) (hu : (κ + 10) * ε ≤ 1 / 100000)
    {tb : String × List String × List (Int × List (Option Nat))} (ht : tb ∈ ratingTables) :
    tb.2.2.Pairwise fun a b => knot fp a.1 < knot fp b.1 := by
  have e0 := H.nonneg
  have κ0 : (0 : ℝ) ≤ κ := Nat.cast_nonneg κ
  have ke : 0 ≤ κ * ε := mul_nonneg κ0 e0
  refine (table_inc tb ht).imp_of_mem ?_
  intro a b ha hb hab
  obtain ⟨a1, a2, -⟩ := curve_temp ht (i := 0) (List.mem_map.mpr ⟨a, ha, rfl⟩)
  obtain ⟨b1, b2, -⟩ := curve_temp ht (i := 0) (List.mem_map.mpr ⟨b, hb, rfl⟩)
  have gap : (a.1 : ℝ) + 1 ≤ b.1 := by exact_mod_cast hab
  have ka := knot_err H hu a1 a2
  have kb := knot_err H hu b1 b2
  rw [abs_le] at ka kb
  simp only at ka kb
  have : 2040 * (κ * ε) + 5220 * ε ≤ 2 / 5 := by nlinarith
  linarith [ka.2, kb.1]

theorem baseR_mono (M : fp.Monotone) {a b : Quantity} (hu : a.unit = b.unit) (h : a.mag ≤ b.mag) :
    a.baseR fp ≤ b.baseR fp := by
  obtain ⟨m, w, r⟩ := a
  obtain ⟨m', w', r'⟩ := b
  simp only at hu h
  subst hu
  have h1 := M.mono _ _ (mul_le_mul_of_nonneg_right h (M.conv w (PUnit.base w.dim)))
  simp only [baseR]
  by_cases h2 : w = PUnit.base w.dim
  · rw [if_pos h2, if_pos h2]; exact h
  · rw [if_neg h2, if_neg h2]
    by_cases h3 : w.offset = 0
    · rw [if_pos h3, if_pos h3]; exact h1
    · rw [if_neg h3, if_neg h3]; exact M.mono _ _ (add_le_add h1 le_rfl)

theorem lessR_spec (M : fp.Monotone) {a b : Quantity} (hr : a.reg = b.reg) (hd : a.unit.dim = b.unit.dim) :
    ∃ d, a.lessR fp b = .ok d ∧ (d = true → a.baseR fp ≤ b.baseR fp) ∧ (d = false → b.baseR fp ≤ a.baseR fp) := by
  simp only [lessR, sameReg, if_pos hr, ok_bind, hd, if_true]
  by_cases h : a.unit = b.unit
  · rw [if_pos h]
    refine ⟨_, rfl, ?_, ?_⟩
    · intro h2; exact baseR_mono M h (of_decide_eq_true h2).le
    · intro h2; exact baseR_mono M h.symm (not_lt.mp (of_decide_eq_false h2))
  · rw [if_neg h]
    refine ⟨_, rfl, ?_, ?_⟩
    · intro h2; exact (of_decide_eq_true h2).le
    · intro h2; exact not_lt.mp (of_decide_eq_false h2)

/-- A range check with the ends of a list of numbers in a unit. -/
theorem checkRangeR_spec (M : fp.Monotone) {q : Quantity} {w : PUnit} {r : ℕ} {msg : String} {l : List ℝ} (hne : l ≠ [])
    (hr : q.reg = r) (hd : q.unit.dim = w.dim) :
    (checkRangeR fp q (seriesMin l) (seriesMax l) w r msg = .ok () ∧
      (∃ a ∈ l, (⟨a, w, r⟩ : Quantity).baseR fp ≤ q.baseR fp) ∧ ∃ b ∈ l, q.baseR fp ≤ (⟨b, w, r⟩ : Quantity).baseR fp) ∨
    (checkRangeR fp q (seriesMin l) (seriesMax l) w r msg = .error (.valueError msg) ∧
      ((∀ a ∈ l, q.baseR fp ≤ (⟨a, w, r⟩ : Quantity).baseR fp) ∨
        ∀ b ∈ l, (⟨b, w, r⟩ : Quantity).baseR fp ≤ q.baseR fp)) := by
  obtain ⟨m1, m2⟩ := seriesMin_spec hne
  obtain ⟨M1, M2⟩ := seriesMax_spec hne
  obtain ⟨d1, e1, t1, f1⟩ := lessR_spec M (a := q) (b := ⟨seriesMin l, w, r⟩) hr hd
  obtain ⟨d2, e2, t2, f2⟩ := lessR_spec M (a := ⟨seriesMax l, w, r⟩) (b := q) hr.symm hd.symm
  have hlo : ∀ a ∈ l, (⟨seriesMin l, w, r⟩ : Quantity).baseR fp ≤ (⟨a, w, r⟩ : Quantity).baseR fp :=
    fun a ha => baseR_mono M rfl (m2 a ha)
  have hhi : ∀ a ∈ l, (⟨a, w, r⟩ : Quantity).baseR fp ≤ (⟨seriesMax l, w, r⟩ : Quantity).baseR fp :=
    fun a ha => baseR_mono M rfl (M2 a ha)
  simp only [checkRangeR, e1, e2, ok_bind]
  cases d1 with
  | true => exact .inr ⟨by simp, .inl fun a ha => (t1 rfl).trans (hlo a ha)⟩
  | false =>
    cases d2 with
    | true => exact .inr ⟨by simp, .inr fun a ha => (hhi a ha).trans (t2 rfl)⟩
    | false => exact .inl ⟨by simp, ⟨_, m1, f1 rfl⟩, _, M1, f2 rfl⟩

/-! ### C112 -/

/-- How far the temperature may seem to move, in kelvin. -/
noncomputable def shift (ε : ℝ) (κ : ℕ) : ℝ := (4100 * κ + 10000) * ε

/-- The computed ratings at an accepted temperature: those of all classes at one temperature near the given one. -/
theorem interpolateR_seg (H : fp.Accurate ε κ) (hu : (κ + 10) * ε ≤ 1 / 100000)
    {tb : String × List String × List (Int × List (Option Nat))} (ht : tb ∈ ratingTables)
    {X : ℝ} (hX : |X - (t + 27315 / 100)| ≤ 2040 * (κ * ε) + 4400 * ε)
    (ha : ∃ a ∈ tb.2.2, knot fp a.1 ≤ X) (hb : ∃ b ∈ tb.2.2, X ≤ knot fp b.1) :
    ∃ t', |t' - t| ≤ shift ε κ ∧ ∃ c ∈ tb.2.2, ∃ d ∈ tb.2.2, ∃ s, 0 ≤ s ∧ s ≤ 1 ∧ ∀ i cls, tb.2.1[i]? = some cls →
      On (curveOf i tb.2.2) t' (cellBar i c + (cellBar i d - cellBar i c) * s) ∧
      Near ε (κ + 8) ((cellBar i c + (cellBar i d - cellBar i c) * s) * 100000)
        (interpolateR fp X (curveSIR fp (roundFrame fp (frameOf tb.2)) cls)) := by
  have e0 := H.nonneg
  have κ0 : (0 : ℝ) ≤ κ := Nat.cast_nonneg κ
  have ke : 0 ≤ κ * ε := mul_nonneg κ0 e0
  have hinc := inc_knots H hu ht
  obtain ⟨a, ha, ha1⟩ := ha
  obtain ⟨b, hb, hb1⟩ := hb
  obtain ⟨pre, c, d, suf, e1, e2, e3, e4, e5⟩ := slinearR_seg (fp := fp) (k := fun r : ℤ × List (Option ℕ) =>
    knot fp r.1) hinc (table_rows tb ht) ha hb ha1 hb1
  set s := (X - knot fp c.1) / (knot fp d.1 - knot fp c.1) with hs
  have hpos : 0 < knot fp d.1 - knot fp c.1 := sub_pos.mpr e4
  have s0 : 0 ≤ s := div_nonneg (sub_nonneg.mpr e2) hpos.le
  have s1 : s ≤ 1 := (div_le_one hpos).mpr (by linarith)
  have hcd : (c.1 : ℝ) < d.1 := by
    have h2 := table_inc tb ht
    rw [e1] at h2
    have := List.rel_of_pairwise_cons (List.pairwise_append.mp h2).2.1 List.mem_cons_self
    exact_mod_cast this
  have hcd0 : 0 < (d.1 : ℝ) - c.1 := sub_pos.mpr hcd
  have hcm : c ∈ tb.2.2 := by rw [e1]; simp
  have hdm : d ∈ tb.2.2 := by rw [e1]; simp
  refine ⟨c.1 + s * (d.1 - c.1), ?_, c, hcm, d, hdm, s, s0, s1, ?_⟩
  · obtain ⟨c1, c2, -⟩ := curve_temp ht (i := 0) (List.mem_map.mpr ⟨c, hcm, rfl⟩)
    obtain ⟨d1, d2, -⟩ := curve_temp ht (i := 0) (List.mem_map.mpr ⟨d, hdm, rfl⟩)
    have kc := knot_err H hu c1 c2
    have kd := knot_err H hu d1 d2
    simp only at kc kd
    have eX : X = knot fp c.1 + s * (knot fp d.1 - knot fp c.1) := by
      rw [hs, div_mul_cancel₀ _ hpos.ne']; ring
    clear e5
    generalize knot fp c.1 = C at *
    generalize knot fp d.1 = D at *
    have e9 : c.1 + s * (d.1 - c.1) - t = (1 - s) * -(C - (c.1 + 27315 / 100)) +
        s * -(D - (d.1 + 27315 / 100)) + (X - (t + 27315 / 100)) := by rw [eX]; ring
    have m1 : |(1 - s) * -(C - (c.1 + 27315 / 100))| ≤ (1 - s) * (2040 * (κ * ε) + 5220 * ε) := by
      rw [abs_mul, abs_neg, abs_of_nonneg (by linarith)]
      exact mul_le_mul_of_nonneg_left kc (by linarith)
    have m2 : |s * -(D - (d.1 + 27315 / 100))| ≤ s * (2040 * (κ * ε) + 5220 * ε) := by
      rw [abs_mul, abs_neg, abs_of_nonneg s0]
      exact mul_le_mul_of_nonneg_left kd s0
    rw [e9]
    refine (abs_add_le _ _).trans ((add_le_add ((abs_add_le _ _).trans (add_le_add m1 m2)) hX).trans ?_)
    unfold shift
    nlinarith
  · intro i cls hi
    have cell0 : ∀ r, 0 ≤ cellBar i r := fun r => by simp only [cellBar]; positivity
    have p5 : (0 : ℝ) ≤ 100000 := by norm_num
    have near := segR_near H (a := (knot fp c.1, rate fp (cellBar i c))) (b := (knot fp d.1, rate fp (cellBar i d)))
      e4 e2 e3 (mul_nonneg (cell0 c) p5) (mul_nonneg (cell0 d) p5)
      (rate_near H (cellBar i c)) (rate_near H (cellBar i d))
    simp only at near
    rw [← hs] at near
    refine ⟨⟨curveOf i pre, (c.1, cellBar i c), (d.1, cellBar i d),
      curveOf i suf, ?_, ?_, ?_, ?_⟩, ?_⟩
    · rw [e1]; simp [curveOf]
    · have := mul_nonneg s0 hcd0.le; simp only; linarith
    · have := mul_le_mul_of_nonneg_right s1 hcd0.le; simp only; linarith
    · simp only
      rw [add_sub_cancel_left, mul_div_assoc, div_self hcd0.ne', mul_one]
    · have hint : interpolateR fp X (curveSIR fp (roundFrame fp (frameOf tb.2)) cls) =
          segR fp X (knot fp c.1, rate fp (cellBar i c)) (knot fp d.1, rate fp (cellBar i d)) := by
        have h2 : (tb.2.2.map fun r => (knot fp r.1, rate fp (cellBar i r))).Pairwise (fun a b => a.1 ≤ b.1) := by
          rw [List.pairwise_map]; exact hinc.imp fun h => h.le
        rw [← e5 fun r => rate fp (cellBar i r), curveSIR_eq ht hi, curveOf, List.map_map, interpolateR, sortPts,
          List.Pairwise.insertionSort_eq]
        · rfl
        · exact h2
      rw [hint]
      rw [show cellBar i c * 100000 + (cellBar i d * 100000 - cellBar i c * 100000) * s =
        (cellBar i c + (cellBar i d - cellBar i c) * s) * 100000 by ring] at near
      exact near

theorem interpolateR_near (H : fp.Accurate ε κ) (hu : (κ + 10) * ε ≤ 1 / 100000)
    {tb : String × List String × List (Int × List (Option Nat))} (ht : tb ∈ ratingTables)
    {X : ℝ} (hX : |X - (t + 27315 / 100)| ≤ 2040 * (κ * ε) + 4400 * ε)
    (ha : ∃ a ∈ tb.2.2, knot fp a.1 ≤ X) (hb : ∃ b ∈ tb.2.2, X ≤ knot fp b.1) :
    ∃ t', |t' - t| ≤ shift ε κ ∧ ∀ i cls, tb.2.1[i]? = some cls → ∃ p, On (curveOf i tb.2.2) t' p ∧ 0 ≤ p ∧
      Near ε (κ + 8) (p * 100000) (interpolateR fp X (curveSIR fp (roundFrame fp (frameOf tb.2)) cls)) := by
  obtain ⟨t', h, c, -, d, -, s, s0, s1, hall⟩ := interpolateR_seg H hu ht hX ha hb
  refine ⟨t', h, fun i cls hi => ?_⟩
  obtain ⟨h1, h2⟩ := hall i cls hi
  have cell0 : ∀ r, 0 ≤ cellBar i r := fun r => by simp only [cellBar]; positivity
  have h3 := mul_nonneg (cell0 c) (sub_nonneg.mpr s1)
  have h4 := mul_nonneg (cell0 d) s0
  exact ⟨_, h1, by linarith, h2⟩

theorem baseR_reg (m : ℝ) (w : PUnit) (r r' : ℕ) : (⟨m, w, r⟩ : Quantity).baseR fp = (⟨m, w, r'⟩ : Quantity).baseR fp :=
  rfl

/-- The range check of the temperature. -/
theorem tempRangeR (M : fp.Monotone) {tb : String × List String × List (Int × List (Option Nat))}
    (ht : tb ∈ ratingTables) {q : Quantity} {r : ℕ} {msg : String} (hr : q.reg = r)
    (hd : q.unit.dim = Dim.temperature) :
    (checkRangeR fp q (seriesMin ((roundFrame fp (frameOf tb.2)).rows.map (·.1)))
        (seriesMax ((roundFrame fp (frameOf tb.2)).rows.map (·.1))) PUnit.degC r msg = .ok () ∧
      (∃ a ∈ tb.2.2, knot fp a.1 ≤ q.baseR fp) ∧ ∃ b ∈ tb.2.2, q.baseR fp ≤ knot fp b.1) ∨
    (checkRangeR fp q (seriesMin ((roundFrame fp (frameOf tb.2)).rows.map (·.1)))
        (seriesMax ((roundFrame fp (frameOf tb.2)).rows.map (·.1))) PUnit.degC r msg = .error (.valueError msg) ∧
      ((∀ a ∈ tb.2.2, q.baseR fp ≤ knot fp a.1) ∨ ∀ b ∈ tb.2.2, knot fp b.1 ≤ q.baseR fp)) := by
  have e : (roundFrame fp (frameOf tb.2)).rows.map (·.1) = tb.2.2.map fun r => fp.rnd r.1 := by
    simp only [roundFrame, frameOf, List.map_map, Function.comp_def]
  rw [e]
  have hne : (tb.2.2.map fun r => fp.rnd r.1) ≠ [] := by
    intro h
    rw [List.map_eq_nil_iff] at h
    have := table_rows tb ht
    rw [h] at this; simp at this
  rcases checkRangeR_spec M (q := q) (w := PUnit.degC) (r := r) (msg := msg) hne hr hd with ⟨h, h1, h2⟩ | ⟨h, h1⟩
  · obtain ⟨a, ha0, ha'⟩ := h1
    obtain ⟨b, hb0, hb'⟩ := h2
    obtain ⟨a, ha, rfl⟩ := List.mem_map.mp ha0
    obtain ⟨b, hb, rfl⟩ := List.mem_map.mp hb0
    exact .inl ⟨h, ⟨a, ha, ha'⟩, b, hb, hb'⟩
  · refine .inr ⟨h, ?_⟩
    rcases h1 with h1 | h1
    · exact .inl fun a ha => h1 _ (List.mem_map.mpr ⟨a, ha, rfl⟩)
    · exact .inr fun a ha => h1 _ (List.mem_map.mpr ⟨a, ha, rfl⟩)

/-- `get_max_pressure` after the lookups. -/
theorem getMaxPressureR_eval {tb : String × List String × List (Int × List (Option Nat))} (ht : IsTable material tb)
    {i : ℕ} (hi : tb.2.1[i]? = some cls) {q : Quantity} (e : parseQ x u = .ok q) :
    getMaxPressureR fp u cls x (.str material) = (do
      checkRangeR fp q (seriesMin ((roundFrame fp (frameOf tb.2)).rows.map (·.1)))
        (seriesMax ((roundFrame fp (frameOf tb.2)).rows.map (·.1))) PUnit.degC u.id "Temperature out of range."
      .ok ⟨interpolateR fp (q.baseR fp) (curveSIR fp (roundFrame fp (frameOf tb.2)) cls), PUnit.pascal,
        outReg u x⟩) := by
  obtain ⟨hm, hne⟩ := class_ne_temperature ht.1 hi
  have hck : checkClass cls (tb.1, roundFrame fp (frameOf tb.2)) = .ok () := by
    unfold checkClass
    rw [if_pos]
    exact List.mem_cons_of_mem _ hm
  simp only [getMaxPressureR, withLimitsR_eq, lookupGroupR_eq ht, ok_bind, hck, e, if_neg hne]

theorem shift_nonneg (H : fp.Accurate ε κ) : 0 ≤ shift ε κ :=
  mul_nonneg (by positivity) H.nonneg

/-- C112: a rating returned in floating point is the rating on the published curve at a temperature within `shift` of
the given one, right up to `κ + 8` roundings; it is in pascal, in the registry of the temperature. -/
theorem C112_pressure (H : fp.Accurate ε κ) (M : fp.Monotone) (hu : (κ + 10) * ε ≤ 1 / 100000)
    (hc : IsCurve material cls curve) (hx : IsDegC u x t) {w : PUnit} (hw : UnitOf u x w) (o0 : 0 ≤ w.offset)
    (o1 : w.offset ≤ 300) (t0 : -27315 / 100 ≤ t) (t1 : t ≤ 1700) {q : Quantity}
    (h : getMaxPressureR fp u cls x (.str material) = .ok q) :
    ∃ t' p, |t' - t| ≤ shift ε κ ∧ On curve t' p ∧ RelClose ε (κ + 8) (p * 100000) q.mag ∧
      q.unit = PUnit.pascal ∧ q.reg = outReg u x := by
  obtain ⟨tb, ht, i, hi7, hi, rfl⟩ := hc.table
  obtain ⟨v, e, hd, hp, hr⟩ := parse_any hx
  have hvw := Tube.unit_of_parse e hw
  have κ0 : (0 : ℝ) ≤ κ := Nat.cast_nonneg κ
  have e0 := H.nonneg
  have hX := baseR_err H (hu.trans (by norm_num)) hp (by linarith) (by linarith) (by rwa [hvw]) (by rwa [hvw])
  rw [getMaxPressureR_eval ht hi e] at h
  rcases tempRangeR M ht.1 (msg := "Temperature out of range.") hr hd with ⟨h1, ha, hb⟩ | ⟨h1, -⟩
  · rw [h1, ok_bind, Except.ok.injEq] at h
    subst h
    obtain ⟨t', ht', hall⟩ := interpolateR_near H hu ht.1 hX ha hb
    obtain ⟨p, ho, -, hn⟩ := hall i cls hi
    refine ⟨t', p, ht', ho, ?_, rfl, rfl⟩
    have := Near.bound e0 H.lt_one (by push_cast; nlinarith) hn
    exact_mod_cast this
  · rw [h1, err_bind] at h; simp at h

/-- C112: a temperature inside the table by more than `shift` is accepted, one outside by more than `shift` raises
ValueError. -/
theorem C112_range (H : fp.Accurate ε κ) (M : fp.Monotone) (hu : (κ + 10) * ε ≤ 1 / 100000)
    (hc : IsCurve material cls curve) (hx : IsDegC u x t) {w : PUnit} (hw : UnitOf u x w) (o0 : 0 ≤ w.offset)
    (o1 : w.offset ≤ 300) (t0 : -27315 / 100 ≤ t) (t1 : t ≤ 1700) :
    ((∃ a ∈ curve, a.1 + shift ε κ < t) → (∃ b ∈ curve, t + shift ε κ < b.1) →
      ∃ q, getMaxPressureR fp u cls x (.str material) = .ok q) ∧
    ((∀ a ∈ curve, t + shift ε κ < a.1) ∨ (∀ b ∈ curve, b.1 + shift ε κ < t) →
      getMaxPressureR fp u cls x (.str material) = .error (.valueError "Temperature out of range.")) := by
  obtain ⟨tb, ht, i, hi7, hi, rfl⟩ := hc.table
  obtain ⟨v, e, hd, hp, hr⟩ := parse_any hx
  have hvw := Tube.unit_of_parse e hw
  have κ0 : (0 : ℝ) ≤ κ := Nat.cast_nonneg κ
  have e0 := H.nonneg
  have ke : 0 ≤ κ * ε := mul_nonneg κ0 e0
  have hX := baseR_err H (hu.trans (by norm_num)) hp (by linarith) (by linarith) (by rwa [hvw]) (by rwa [hvw])
  have hk : ∀ a ∈ tb.2.2, |knot fp a.1 - (a.1 + 27315 / 100)| ≤ 2040 * (κ * ε) + 5220 * ε := by
    intro a ha
    obtain ⟨c1, c2, -⟩ := curve_temp ht.1 (i := 0) (List.mem_map.mpr ⟨a, ha, rfl⟩)
    exact knot_err H hu c1 c2
  have hs : 4080 * (κ * ε) + 9620 * ε ≤ shift ε κ := by unfold shift; nlinarith
  rw [getMaxPressureR_eval ht hi e]
  rw [abs_le] at hX
  constructor
  · rintro ⟨a, ha0, ha1⟩ ⟨b, hb0, hb1⟩
    obtain ⟨a, ha, rfl⟩ := List.mem_map.mp ha0
    obtain ⟨b, hb, rfl⟩ := List.mem_map.mp hb0
    have ka := abs_le.mp (hk a ha)
    have kb := abs_le.mp (hk b hb)
    simp only at ha1 hb1
    rcases tempRangeR M ht.1 (msg := "Temperature out of range.") hr hd with ⟨h1, -⟩ | ⟨-, h1 | h1⟩
    · rw [h1, ok_bind]; exact ⟨_, rfl⟩
    · have := h1 a ha; linarith [ka.2, hX.1]
    · have := h1 b hb; linarith [kb.1, hX.2]
  · intro hout
    rcases tempRangeR M ht.1 (msg := "Temperature out of range.") hr hd with ⟨-, ⟨a, ha, ha1⟩, b, hb, hb1⟩ | ⟨h1, -⟩
    · exfalso
      have ka := abs_le.mp (hk a ha)
      have kb := abs_le.mp (hk b hb)
      rcases hout with h | h
      · have := h _ (List.mem_map.mpr ⟨a, ha, rfl⟩)
        simp only at this
        linarith [ka.1, hX.2]
      · have := h _ (List.mem_map.mpr ⟨b, hb, rfl⟩)
        simp only at this
        linarith [kb.2, hX.1]
    · rw [h1]; rfl

/-- C112: in degrees Celsius the range check is exact, ends included. -/
theorem C112_range_degC (I : Tube.FP.Ints fp) (hc : IsCurve material cls curve) (hx : IsDegC u x t)
    (hw : UnitOf u x PUnit.degC) :
    ((∃ p, On curve t p) → ∃ q, getMaxPressureR fp u cls x (.str material) = .ok q) ∧
    ((¬ ∃ p, On curve t p) →
      getMaxPressureR fp u cls x (.str material) = .error (.valueError "Temperature out of range.")) := by
  obtain ⟨tb, ht, i, hi7, hi, rfl⟩ := hc.table
  obtain ⟨v, e, hd, hp, hr⟩ := parse_any hx
  have hvw := Tube.unit_of_parse e hw
  have hm : v.mag = t := by
    rw [phys, hvw] at hp; simp only [PUnit.degC] at hp; linarith
  rw [getMaxPressureR_eval ht hi e]
  have e1 : (roundFrame fp (frameOf tb.2)).rows.map (·.1) = (frameOf tb.2).rows.map (·.1) := by
    simp only [roundFrame, frameOf, List.map_map, Function.comp_def]
    apply List.map_congr_left
    intro r hr
    obtain ⟨h1, h2⟩ := table_temps tb ht.1 r hr
    exact I r.1 (by rw [abs_le]; constructor <;> omega)
  have e2 : ∀ lo hi msg, checkRangeR fp v lo hi PUnit.degC u.id msg = checkRange v lo hi PUnit.degC u.id msg := by
    intro lo hi msg
    simp only [checkRangeR, checkRange, lessR, Quantity.lt, hvw, if_true, phys, sameReg, hr, ok_bind]
    simp [PUnit.degC]
  obtain ⟨t1, t2⟩ := tempRange (q := v) (msg := "Temperature out of range.") ht.1 hi7 hr hd hp
  rw [e1, e2]
  constructor
  · intro ho; rw [t1 ho]; exact ⟨_, rfl⟩
  · intro ho; rw [t2 ho]; rfl

/-! ### The class -/

theorem firstClassR_ok {tb : String × List String × List (Int × List (Option Nat))} (ht : tb ∈ ratingTables) {X P : ℝ}
    (h : firstClassR fp (roundFrame fp (frameOf tb.2)) X P = .ok c) :
    ∃ l1 l2, classes.map (·.1) = l1 ++ c :: l2 ∧
      P ≤ interpolateR fp X (curveSIR fp (roundFrame fp (frameOf tb.2)) c) ∧
      ∀ c' ∈ l1, interpolateR fp X (curveSIR fp (roundFrame fp (frameOf tb.2)) c') < P := by
  unfold firstClassR at h
  split at h
  · simp at h
  · rename_i c' rest he
    simp only [Except.ok.injEq] at h
    subst h
    have hcols : (roundFrame fp (frameOf tb.2)).cols = classes.map (·.1) := table_cols tb ht
    rw [hcols, List.filter_eq_cons_iff] at he
    obtain ⟨l1, l2, e1, e2, e3, e4⟩ := he
    exact ⟨l1, l2, e1, by simpa using e3, fun c' hc' => by simpa using e2 c' hc'⟩

theorem firstClassR_total {tb : String × List String × List (Int × List (Option Nat))}
    {X P : ℝ} {i : ℕ} (hi : tb.2.1[i]? = some c)
    (h : P ≤ interpolateR fp X (curveSIR fp (roundFrame fp (frameOf tb.2)) c)) :
    ∃ c', firstClassR fp (roundFrame fp (frameOf tb.2)) X P = .ok c' := by
  have hcm : c ∈ (roundFrame fp (frameOf tb.2)).cols := List.mem_of_getElem? hi
  unfold firstClassR
  split
  · rename_i he
    rw [List.filter_eq_nil_iff] at he
    exact absurd (by simpa using h) (he c hcm)
  · exact ⟨_, rfl⟩

theorem checkBaseR_ok_iff {q : Quantity} {kind : String} {d : Dim} (hk : supportedDims.lookup kind = some d) :
    checkBaseR fp q kind = .ok () ↔ q.unit.dim = d ∧ 0 ≤ q.baseR fp := by
  rw [checkBaseR, checkQ_ok_iff hk]
  simp [phys, PUnit.base]

/-- What a successful call of `get_class` in floating point has computed. -/
theorem getClassR_inv {m : Tube.MatIn} (h : getClassR fp u reg x y m = .ok c) (M : fp.Monotone) :
    ∃ material tb q w, m = .str material ∧ IsTable material tb ∧ parseQ x reg = .ok q ∧ parseQ y reg = .ok w ∧
      q.unit.dim = Dim.pressure ∧ w.unit.dim = Dim.temperature ∧ 0 ≤ q.baseR fp ∧ 0 ≤ w.baseR fp ∧
      (∃ a ∈ tb.2.2, knot fp a.1 ≤ w.baseR fp) ∧ (∃ b ∈ tb.2.2, w.baseR fp ≤ knot fp b.1) ∧
      checkRangeR fp ⟨w.mag, w.unit, u.id⟩ (seriesMin ((roundFrame fp (frameOf tb.2)).rows.map (·.1)))
        (seriesMax ((roundFrame fp (frameOf tb.2)).rows.map (·.1))) PUnit.degC u.id "Temperature out of range." =
        .ok () ∧
      firstClassR fp (roundFrame fp (frameOf tb.2)) (w.baseR fp) (q.baseR fp) = .ok c := by
  simp only [getClassR, withLimitsR_eq, bind_eq_ok] at h
  obtain ⟨q, e, w, e', ⟨⟩, c1, ⟨⟩, c2, q', e1, w', e2, g, hg, key, -, ⟨⟩, -, ⟨⟩, hrange, hfirst⟩ := h
  obtain ⟨d1, n1⟩ := (checkBaseR_ok_iff lookup_pressure).mp c1
  obtain ⟨d2, n2⟩ := (checkBaseR_ok_iff lookup_temperature).mp c2
  simp only [parseQ, Except.ok.injEq] at e1 e2
  subst e1 e2
  cases m with
  | other r => simp [lookupGroup, checkMaterial, err_bind] at hg
  | str material =>
    have hmem : ∃ row ∈ Data.materialRows, row.1 = material := by
      simp only [lookupGroup, bind_eq_ok] at hg
      obtain ⟨⟨⟩, hm, -⟩ := hg
      simp only [checkMaterial] at hm
      split at hm
      · rename_i hin; exact List.mem_map.mp hin
      · simp at hm
    obtain ⟨tb, ht⟩ := table_exists hmem
    rw [lookupGroupR_eq ht, Except.ok.injEq] at hg
    subst hg
    refine ⟨material, tb, q, w, rfl, ht, e, e', d1, d2, n1, n2, ?_⟩
    rcases tempRangeR M ht.1 (q := ⟨w.mag, w.unit, u.id⟩) (r := u.id) (msg := "Temperature out of range.") rfl d2 with
      ⟨-, ha, hb⟩ | ⟨h1, -⟩
    · exact ⟨ha, hb, hrange, hfirst⟩
    · rw [h1] at hrange; simp at hrange

/-- Pressure in pascal as computed: `κ + 1` roundings. -/
theorem pressure_near (H : fp.Accurate ε κ) {q : Quantity} {P : ℝ} (ho : q.unit.offset = 0) (hp : q.phys = P) :
    Near ε (κ + 1) P (q.baseR fp) := by
  have h0 := H.nonneg; have hl := H.lt_one
  rw [phys, ho, add_zero] at hp
  simp only [baseR]
  split
  · rename_i h
    have : q.unit.scale = 1 := by rw [h]; rfl
    rw [this, mul_one] at hp
    rw [hp]
    exact Near.mono h0 hl (Nat.zero_le _) (Near.refl ε P)
  · have hc := H.conv q.unit (PUnit.base q.unit.dim) rfl
    have h1 := H.round (Near.mul h0 hl (Near.refl ε q.mag) hc)
    rw [show q.mag * (q.unit.scale / (PUnit.base q.unit.dim).scale) = P by rw [← hp]; simp [PUnit.base]] at h1
    exact Near.mono h0 hl (by omega) h1

theorem near_le {m n : ℕ} (h0 : 0 ≤ ε) (h1 : ε < 1) {a b a' b' : ℝ} (ha : Near ε m a a') (hb : Near ε n b b')
    (a0 : 0 ≤ a) (b0 : 0 ≤ b) (h : a' ≤ b') : a * (1 - ε) ^ (m + n) ≤ b := by
  obtain ⟨θ, l1, -, rfl⟩ := ha
  obtain ⟨η, -, l2, rfl⟩ := hb
  have p := Near.pow_bounds h0 h1 n
  calc a * (1 - ε) ^ (m + n) = a * (1 - ε) ^ m * (1 - ε) ^ n := by rw [pow_add]; ring
    _ ≤ a * θ * (1 - ε) ^ n := mul_le_mul_of_nonneg_right (mul_le_mul_of_nonneg_left l1 a0) p.1.le
    _ ≤ b * η * (1 - ε) ^ n := mul_le_mul_of_nonneg_right h p.1.le
    _ = b * (η * (1 - ε) ^ n) := by ring
    _ ≤ b * 1 := mul_le_mul_of_nonneg_left l2 b0
    _ = b := mul_one b

/-- C112: a class returned in floating point is rated for the pressure, up to `2κ + 9` roundings of the pressure, at a
temperature within `shift` of the given one; and at this temperature every smaller class is not (up to as many
roundings). -/
theorem C112_class (H : fp.Accurate ε κ) (M : fp.Monotone) (hu : (κ + 10) * ε ≤ 1 / 100000)
    (hx : IsBar reg x p) (hy : IsDegC reg y t) {v w : PUnit} (hv : UnitOf reg x v) (hw : UnitOf reg y w)
    (v0 : v.offset = 0) (o0 : 0 ≤ w.offset) (o1 : w.offset ≤ 300) (t1 : t ≤ 1700) (t0 : -27315 / 100 ≤ t)
    (h : getClassR fp u reg x y (.str material) = .ok c) :
    ∃ n t', (c, n) ∈ classes ∧ |t' - t| ≤ shift ε κ ∧
      (∃ curve r, IsCurve material c curve ∧ On curve t' r ∧ p * (1 - ε) ^ (2 * κ + 9) ≤ r) ∧
      ∀ c' n', (c', n') ∈ classes → n' < n →
        ∃ curve r, IsCurve material c' curve ∧ On curve t' r ∧ r * (1 - ε) ^ (2 * κ + 9) ≤ p := by
  have h0 := H.nonneg; have hl := H.lt_one
  obtain ⟨m, tb, q, z, em, ht, e1, e2, d1, d2, n1, n2, ha, hb, -, hf⟩ := getClassR_inv h M
  simp only [Tube.MatIn.str.injEq] at em
  subst em
  have hqv := Tube.unit_of_parse e1 hv
  have hzw := Tube.unit_of_parse e2 hw
  have hp : q.phys = p * 100000 := (Denotes.unique (denotes_of_parse e1).1 hx).2
  have ht' : z.phys = t + 27315 / 100 := (Denotes.unique (denotes_of_parse e2).1 hy).2
  have hX := baseR_err H (hu.trans (by norm_num)) ht' (by linarith) (by linarith) (by rwa [hzw]) (by rwa [hzw])
  have np := pressure_near H (by rw [hqv]; exact v0) hp
  have p0 : 0 ≤ p * 100000 := by
    obtain ⟨θ, a, -, e⟩ := np
    by_contra hneg
    have := mul_neg_of_neg_of_pos (not_le.mp hneg) (Near.theta_pos h0 hl a)
    rw [← e] at this
    linarith
  obtain ⟨t', hd, hall⟩ := interpolateR_near H hu ht.1 hX ha hb
  obtain ⟨l1, l2, el, h1, h2⟩ := firstClassR_ok ht.1 hf
  have hcm : c ∈ classes.map (·.1) := by rw [el]; simp
  obtain ⟨i, hi7, hi⟩ := class_index ht hcm
  obtain ⟨⟨c1, n⟩, hn, rfl⟩ := List.mem_map.mp hcm
  refine ⟨n, t', hn, hd, ?_, ?_⟩
  · obtain ⟨r, ho, r0, nr⟩ := hall i _ hi
    refine ⟨_, r, ht.curve hi, ho, ?_⟩
    have := near_le h0 hl np nr p0 (by positivity) h1
    rw [show κ + 1 + (κ + 8) = 2 * κ + 9 by ring] at this
    nlinarith
  · intro c' n' hn' hlt
    obtain ⟨j, hj7, hj⟩ := class_index ht (List.mem_map.mpr ⟨_, hn', rfl⟩)
    obtain ⟨r, ho, r0, nr⟩ := hall j _ hj
    refine ⟨_, r, ht.curve hj, ho, ?_⟩
    have := near_le h0 hl nr np (by positivity) p0 (h2 _ ((classes_split el hn hn').1 hlt)).le
    rw [show κ + 8 + (κ + 1) = 2 * κ + 9 by ring] at this
    nlinarith

/-- An argument in a unit known to two registries is the same number of the unit in both. -/
theorem parse_two {w : PUnit} (h : UnitOf u y w) (h' : UnitOf reg y w) :
    ∃ k, parseQ y u = .ok ⟨k, w, u.id⟩ ∧ parseQ y reg = .ok ⟨k, w, reg.id⟩ := by
  cases y with
  | quantity q => cases h; exact ⟨q.mag, rfl, rfl⟩
  | pair m s =>
    have h : u.parse s = some w := h
    have h' : reg.parse s = some w := h'
    exact ⟨m, by simp [parseQ, h], by simp [parseQ, h']⟩
  | other => exact h.elim

/-- C112: in floating point too the two functions agree: the class returned by `get_class` has, from
`get_max_pressure` at that temperature, a rating of at least the pressure (in pascal, as computed), and the rating of
every smaller class is below it. -/
theorem C112_agree (M : fp.Monotone) {w : PUnit} (hy : UnitOf u y w) (hy' : UnitOf reg y w)
    {qx : Quantity} (hx : parseQ x reg = .ok qx) (h : getClassR fp u reg x y (.str material) = .ok c) :
    ∃ n q, (c, n) ∈ classes ∧ getMaxPressureR fp u c y (.str material) = .ok q ∧ qx.baseR fp ≤ q.mag ∧
      ∀ c' n', (c', n') ∈ classes → n' < n →
        ∃ q', getMaxPressureR fp u c' y (.str material) = .ok q' ∧ q'.mag < qx.baseR fp := by
  obtain ⟨m, tb, q, z, em, ht, e1, e2, d1, d2, n1, n2, ha, hb, hr, hf⟩ := getClassR_inv h M
  simp only [Tube.MatIn.str.injEq] at em
  subst em
  rw [hx, Except.ok.injEq] at e1
  subst e1
  obtain ⟨k, f1, f2⟩ := parse_two hy hy'
  rw [f2, Except.ok.injEq] at e2
  have hy : parseQ y u = .ok ⟨z.mag, z.unit, u.id⟩ := by rw [f1, ← e2]
  obtain ⟨l1, l2, el, h1, h2⟩ := firstClassR_ok ht.1 hf
  have hcm : c ∈ classes.map (·.1) := by rw [el]; simp
  obtain ⟨i, hi7, hi⟩ := class_index ht hcm
  obtain ⟨⟨c1, n⟩, hn, rfl⟩ := List.mem_map.mp hcm
  have ev : ∀ {j : ℕ} {c' : String}, tb.2.1[j]? = some c' → getMaxPressureR fp u c' y (.str material) =
      .ok ⟨interpolateR fp (z.baseR fp) (curveSIR fp (roundFrame fp (frameOf tb.2)) c'), PUnit.pascal, outReg u y⟩ := by
    intro j c' hj
    rw [getMaxPressureR_eval ht hj hy, hr, ok_bind]
    rfl
  refine ⟨n, _, hn, ev hi, h1, ?_⟩
  intro c' n' hn' hlt
  obtain ⟨j, hj7, hj⟩ := class_index ht (List.mem_map.mpr ⟨_, hn', rfl⟩)
  exact ⟨_, ev hj, h2 _ ((classes_split el hn hn').1 hlt)⟩

/-- 400 degC in double precision, type 304, class 900 (published: 85.3 bar): a rating is returned; it is the rating
at a temperature less than 1e-11 K away, with a relative error below 2e-15. -/
example (u : Registry) : ∃ q t' p, getMaxPressureR FP.double u "900" (.quantity ⟨400, PUnit.degC, 0⟩) (.str "304") = .ok q ∧
    |t' - 400| ≤ 1 / 10 ^ 11 ∧ On (curveOf 4 Data.group21Rows) t' p ∧
    |q.mag - p * 100000| ≤ 2 / 10 ^ 15 * |p * 100000| := by
  have hc : IsCurve "304" "900" (curveOf 4 Data.group21Rows) :=
    ⟨("304", "2.1", 200, 78, 28), by decide, rfl, _, List.mem_cons_self, rfl, 4, rfl, rfl⟩
  have hx : IsDegC u (.quantity ⟨400, PUnit.degC, 0⟩) 400 := ⟨rfl, by norm_num [PUnit.degC]⟩
  have ho : On (curveOf 4 Data.group21Rows) 400 85.3 := by
    refine ⟨curveOf 4 (Data.group21Rows.take 11), (400, 85.3), (425, 84), curveOf 4 (Data.group21Rows.drop 13),
      ?_, by norm_num, by norm_num, by norm_num⟩
    norm_num [curveOf, Data.group21Rows, cellBar]
  obtain ⟨q, hq⟩ := (C112_range_degC Tube.double_ints hc hx rfl).1 ⟨_, ho⟩
  obtain ⟨t', p, h1, h2, h3, -⟩ := C112_pressure FP.double_accurate FP.double_monotone (by norm_num) hc hx
    (w := PUnit.degC) rfl (by norm_num [PUnit.degC]) (by norm_num [PUnit.degC]) (by norm_num) (by norm_num) hq
  refine ⟨q, t', p, hq, h1.trans (by norm_num [shift]), h2, h3.trans ?_⟩
  exact mul_le_mul_of_nonneg_right (by norm_num) (abs_nonneg _)

end Pypbomb.Flange
