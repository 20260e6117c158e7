/-
C46 and C47 on the whole range of the tables: where the inverse of the flange ratings is right, and the values returned
where it is not.
-/
import Verif.Props.FlangeInverse

namespace Pypbomb.Flange

open Pypbomb

variable {u : Registry} {material cls : String} {curve : List (ℝ × ℝ)} {x : QIn} {p t : ℝ}

/-- The end of a rating curve with unrated rows: 1.4 bar at 538 degC, nothing from 550 to 816 degC. -/
theorem unrated_end (hc : IsCurve material cls curve) (hz : ∃ r ∈ curve, r.2 = 0) :
    (∃ pre suf, curve = pre ++ (538, 1.4) :: (550, 0) :: suf) ∧ (816, 0) ∈ curve ∧
    ∀ p, 0 ≤ p → p < 1.4 → interpolate (p * 100000) ((curve.map si).map Prod.swap) =
      816 - 278 / 1.4 * p + 27315 / 100 := by
  obtain ⟨tb, ht, i, hi7, hi, rfl⟩ := hc.table
  have hz : ∃ a ∈ intCurve i tb.2.2, a.2 = 0 := by
    obtain ⟨r, hrm, hr0⟩ := hz
    rw [curveOf_eq] at hrm
    obtain ⟨a, ha, rfl⟩ := List.mem_map.mp hrm
    refine ⟨a, ha, ?_⟩
    simp only [toReal] at hr0
    have : (a.2 : ℝ) = 0 := by linarith
    exact_mod_cast this
  obtain ⟨k1, k2, k3⟩ := low_end tb ht.1 i hi7 hz
  refine ⟨⟨((intCurve i tb.2.2).take 16).map toReal, ((intCurve i tb.2.2).drop 18).map toReal, ?_⟩, ?_, ?_⟩
  · conv_lhs => rw [curveOf_eq, ← List.take_append_drop 16 (intCurve i tb.2.2), k2]
    simp only [List.map_append, List.map_cons, toReal]
    norm_num
  · rw [curveOf_eq]
    exact List.mem_map.mpr ⟨_, k3, by norm_num [toReal]⟩
  · intro p p0 p1
    rw [curveOf_eq]
    have hsort := List.take_append_drop 11
      (((intCurve i tb.2.2).map Prod.swap).insertionSort (fun a b : ℕ × ℤ => a.1 ≤ b.1))
    rw [k1] at hsort
    rw [inv_segment hsort.symm (by simpa using p0) (by norm_num at p1 ⊢; linarith)]
    norm_num
    ring

theorem curve_nonneg (hc : IsCurve material cls curve) {r : ℝ × ℝ} (hr : r ∈ curve) : 0 ≤ r.2 := by
  obtain ⟨tb, ht, i, hi7, hi, rfl⟩ := hc.table
  rw [curveOf_eq] at hr
  obtain ⟨a, -, rfl⟩ := List.mem_map.mp hr
  simp only [toReal]
  positivity

/-- Above its last rated row a rating curve that still has a positive value is on its way down to 0. -/
theorem gap_rows (hc : IsCurve material cls curve) (ho : On curve t p) (p0 : 0 < p)
    (hr : ¬ ∃ r ∈ curve, t ≤ r.1 ∧ 0 < r.2) :
    (∃ r ∈ curve, r.2 = 0) ∧ 538 < t ∧ t < 550 ∧ p = 1.4 / 12 * (550 - t) := by
  obtain ⟨hinc, hdec, hlen⟩ := hc.facts
  have hz : ∃ r ∈ curve, r.2 = 0 := by
    obtain ⟨pre, a, b, suf, e, h1, h2, -⟩ := ho
    have hb : b ∈ curve := by rw [e]; simp
    refine ⟨b, hb, le_antisymm ?_ (curve_nonneg hc hb)⟩
    by_contra h
    exact hr ⟨b, hb, h2, not_le.mp h⟩
  obtain ⟨⟨pre, suf, hcv⟩, -, -⟩ := unrated_end hc hz
  have m1 : ((538, 1.4) : ℝ × ℝ) ∈ curve := by rw [hcv]; simp
  have m2 : ((550, 0) : ℝ × ℝ) ∈ curve := by rw [hcv]; simp
  have t1 : 538 < t := by
    by_contra h
    exact hr ⟨_, m1, not_lt.mp h, by norm_num⟩
  have t2 : t < 550 := by
    by_contra h
    rw [ho.eq_npInterp hinc] at p0
    have h1 : npInterp t curve ≤ npInterp 550 curve := npInterp_antitone hinc hdec (not_lt.mp h)
    have h2 : npInterp 550 curve = 0 := by
      obtain ⟨pre, suf, e⟩ := List.append_of_mem m2
      rw [e] at hinc ⊢
      exact npInterp_knot pre hinc
    linarith
  refine ⟨hz, t1, t2, ?_⟩
  have ho' : On curve t _ := ⟨_, _, _, _, hcv, t1.le, t2.le, rfl⟩
  rw [ho.unique hinc ho']
  norm_num
  ring

/-- C46 is false also above the last rated row of a class with unrated rows, where the rating curve falls to 0: the
temperature returned, `538 + 278/12 (T - 538)` degC, is hotter than `T`. -/
theorem C46_unrated_violated (hc : IsCurve material cls curve) (hx : IsDegC u x t) (ho : On curve t p) (p0 : 0 < p)
    (hr : ¬ ∃ r ∈ curve, t ≤ r.1 ∧ 0 < r.2) :
    ∃ q q', getMaxPressure u cls x (.str material) = .ok q ∧
      getMaxTemperature u cls (.quantity q) (.str material) = .ok q' ∧
      q'.phys = 538 + 278 / 12 * (t - 538) + 27315 / 100 ∧ t + 27315 / 100 < q'.phys := by
  obtain ⟨hz, t1, t2, hp⟩ := gap_rows hc ho p0 hr
  obtain ⟨⟨pre, suf, hcv⟩, hm, hval⟩ := unrated_end hc hz
  have p1 : p < 1.4 := by rw [hp]; norm_num; linarith
  have m1 : ((538, 1.4) : ℝ × ℝ) ∈ curve := by rw [hcv]; simp
  refine ⟨_, _, (getMaxPressure_eval hc hx).1 p ho,
    (getMaxTemperature_eval hc (isBar_pascal p _)).1 ⟨_, hm, p0.le⟩ ⟨_, m1, p1.le⟩, ?_⟩
  rw [phys_kelvin, hval p p0.le p1, hp]
  norm_num
  constructor
  · ring
  · linarith

/-- C46, exactly: on the part of the curve that falls (above 38 degC, as long as there is a rating), the temperature comes
back if and only if it is at least 50 degC and not above the last rated row. -/
theorem C46_inverse_iff (hc : IsCurve material cls curve) (hx : IsDegC u x t) (ho : On curve t p) (h38 : 38 < t)
    (p0 : 0 < p) :
    ∃ q q', getMaxPressure u cls x (.str material) = .ok q ∧
      getMaxTemperature u cls (.quantity q) (.str material) = .ok q' ∧
      (q'.phys = t + 27315 / 100 ↔ 50 ≤ t ∧ ∃ r ∈ curve, t ≤ r.1 ∧ 0 < r.2) := by
  by_cases h50 : 50 ≤ t
  · by_cases hr : ∃ r ∈ curve, t ≤ r.1 ∧ 0 < r.2
    · obtain ⟨q, q', h1, h2, -, h3⟩ := C46_inverse_partial hc hx h50 hr
      exact ⟨q, q', h1, h2, fun _ => ⟨h50, hr⟩, fun _ => h3⟩
    · obtain ⟨q, q', h1, h2, -, h3⟩ := C46_unrated_violated hc hx ho p0 hr
      exact ⟨q, q', h1, h2, fun h => absurd h h3.ne', fun h => absurd h.2 hr⟩
  · obtain ⟨q, q', h1, h2, -, h3⟩ := C46_violated (u := u) hc hx h38 (not_le.mp h50)
    exact ⟨q, q', h1, h2, fun h => absurd h h3.ne, fun h => absurd h.1 h50⟩

/-! ### C47 at the ends of the range -/

theorem slinear_last_flat {x : ℝ} {a b : ℝ × ℝ} (pre : List (ℝ × ℝ)) (h : ∀ r ∈ pre ++ [a, b], r.1 ≤ x)
    (hab : a.1 = b.1) : slinear x (pre ++ [a, b]) = 0 := by
  induction pre with
  | nil =>
    obtain ⟨a1, a2⟩ := a
    obtain ⟨b1, b2⟩ := b
    simp only at hab
    simp [slinear, hab]
  | cons c pre ih =>
    have hne : pre ++ [a, b] ≠ [] := by simp
    obtain ⟨d, l, e⟩ := List.exists_cons_of_ne_nil hne
    have hl : l ≠ [] := by
      rintro rfl
      have := congrArg List.length e
      simp at this
    have hd : d.1 ≤ x := h d (by rw [List.cons_append, e]; simp)
    have ih' := ih fun r hr => h r (by rw [List.cons_append]; exact List.mem_cons_of_mem _ hr)
    rw [List.cons_append, e]
    rw [e] at ih'
    obtain ⟨c1, c2⟩ := c
    obtain ⟨d1, d2⟩ := d
    simp only [slinear, hl, or_false, not_lt.mpr hd, if_false]
    exact ih'

/-- C47 is false at exactly the largest rating of any class: the temperature returned is 0 K, at which `get_max_pressure`
refuses to give a rating. -/
theorem C47_largest_violated (hc : IsCurve material cls curve) (hx : IsBar u x p) (hm : ∃ r ∈ curve, r.2 = p)
    (hmax : ∀ r ∈ curve, r.2 ≤ p) :
    ∃ q, getMaxTemperature u cls x (.str material) = .ok q ∧ q.mag = 0 ∧ q.unit = PUnit.kelvin ∧
      IsValueError (getMaxPressure u cls (.quantity q) (.str material)) := by
  obtain ⟨r, hr, hrp⟩ := hm
  have hT := (getMaxTemperature_eval hc hx).1 ⟨r, hr, hrp.le⟩ ⟨r, hr, hrp.ge⟩
  obtain ⟨tb, ht, i, hi7, hi, rfl⟩ := hc.table
  obtain ⟨m, D, Z, hs⟩ := curve_shape ht.1 hi7
  obtain ⟨hinc, hdec, hlen⟩ := hc.facts
  have hmp : m = p := by
    refine le_antisymm (hmax (-29, m) (by rw [hs.eq]; simp)) ?_
    rw [← hrp]
    exact hs.le ⟨hinc, hdec⟩ hr
  have hz : interpolate (p * 100000) (((curveOf i tb.2.2).map si).map Prod.swap) = 0 := by
    unfold interpolate
    have e : sortPts (((curveOf i tb.2.2).map si).map Prod.swap) =
        (Z.map inv ++ D.reverse.map inv) ++ [inv (-29, m), inv (38, m)] := by
      rw [hs.sorted]; simp
    have hall : ∀ s ∈ sortPts (((curveOf i tb.2.2).map si).map Prod.swap), s.1 ≤ p * 100000 := by
      intro s hs'
      have hs' := (List.perm_insertionSort _ _).mem_iff.mp hs'
      simp only [List.mem_map] at hs'
      obtain ⟨_, ⟨b, hb, rfl⟩, rfl⟩ := hs'
      have := hmax b hb
      simp only [si, Prod.fst_swap]
      linarith
    rw [e] at hall ⊢
    exact slinear_last_flat _ hall rfl
  rw [hz] at hT
  have hk : IsDegC u (.quantity ⟨0, PUnit.kelvin, outReg u x⟩) (-27315 / 100) :=
    ⟨rfl, by norm_num [PUnit.kelvin, PUnit.base]⟩
  refine ⟨_, hT, rfl, rfl, _, (getMaxPressure_eval hc hk).2 ?_⟩
  · rintro ⟨v, pre, a, b, suf, e, h1, -⟩
    have ha : a ∈ curveOf i tb.2.2 := by rw [e]; simp
    have hge : ∀ a ∈ curveOf i tb.2.2, -29 ≤ a.1 := by
      have := pairwise_of_inc hinc
      rw [hs.eq] at this ⊢
      intro a ha
      rcases List.mem_cons.mp ha with rfl | ha
      · exact le_rfl
      · exact ((List.pairwise_cons.mp this).1 a ha).le
    have := hge a ha
    linarith

/-- C47, exactly, for every pressure that is accepted: the temperature returned is one at which the class is rated for the
pressure if and only if the pressure is below the class's largest rating and reaches its lowest published one (or is 0). -/
theorem C47_exact (hc : IsCurve material cls curve) (hx : IsBar u x p) (hlo : ∃ r ∈ curve, r.2 ≤ p)
    (hhi : ∃ r ∈ curve, p ≤ r.2) :
    ∃ q, getMaxTemperature u cls x (.str material) = .ok q ∧
      ((∃ q', getMaxPressure u cls (.quantity q) (.str material) = .ok q' ∧ p * 100000 ≤ q'.phys) ↔
        (∃ r ∈ curve, p < r.2) ∧ (p = 0 ∨ ∃ r ∈ curve, 0 < r.2 ∧ r.2 ≤ p)) := by
  by_cases hlt : ∃ r ∈ curve, p < r.2
  · have p0 : 0 ≤ p := by
      obtain ⟨r, hr, hrp⟩ := hlo
      exact (curve_nonneg hc hr).trans hrp
    rcases p0.eq_or_lt with h0 | h0
    · have hz : ∃ r ∈ curve, r.2 = 0 := by
        obtain ⟨r, hr, hrp⟩ := hlo
        exact ⟨r, hr, le_antisymm (by rw [h0]; exact hrp) (curve_nonneg hc hr)⟩
      obtain ⟨⟨pre, suf, hcv⟩, hm, hval⟩ := unrated_end hc hz
      have hT := (getMaxTemperature_eval hc hx).1 hlo hhi
      rw [hval p p0 (by rw [← h0]; norm_num)] at hT
      obtain ⟨hinc, hdec, hlen⟩ := hc.facts
      obtain ⟨v, ho⟩ := On.exists hinc hlen hm hm (t := 816 - 278 / 1.4 * p) (by rw [← h0]; norm_num)
        (by rw [← h0]; norm_num)
      have v0 : 0 ≤ v := by
        rw [ho.eq_npInterp hinc]
        apply npInterp_ge hinc
        · intro hn; rw [hn] at hlen; simp at hlen
        · intro r hr
          exact curve_nonneg hc hr
      refine ⟨_, hT, fun _ => ⟨hlt, .inl h0.symm⟩, fun _ => ⟨_,
        (getMaxPressure_eval hc (isDegC_kelvin _ _)).1 v ho, ?_⟩⟩
      rw [phys_pascal, ← h0]
      linarith
    · obtain ⟨q, q', h1, h2, h3⟩ := C47_safe_iff hc hx h0 hlo hlt
      refine ⟨q, h1, ?_, ?_⟩
      · rintro ⟨q'', e, h⟩
        rw [h2] at e
        obtain rfl : q' = q'' := by injection e
        exact ⟨hlt, .inr (h3.mp h)⟩
      · rintro ⟨-, h | h⟩
        · exact absurd h h0.ne'
        · exact ⟨q', h2, h3.mpr h⟩
  · push Not at hlt
    obtain ⟨b, hb, hpb⟩ := hhi
    obtain ⟨q, h1, -, -, msg, h2⟩ := C47_largest_violated hc hx ⟨b, hb, le_antisymm (hlt b hb) hpb⟩ hlt
    refine ⟨q, h1, ?_, ?_⟩
    · rintro ⟨q', e, -⟩
      rw [h2] at e
      cases e
    · rintro ⟨⟨r, hr, h⟩, -⟩
      exact absurd h (not_lt.mpr (hlt r hr))

/-- The hypotheses are met: 304 steel, class 150, 44 degC (round trip fails), 545 degC (fails), 300 degC (comes back), and the
pressures 0, 1, 10 and 19 bar, the last one being the largest rating. -/
example : IsCurve "304" "150" (curveOf 0 Data.group21Rows) ∧
    (∃ p, On (curveOf 0 Data.group21Rows) 44 p ∧ 0 < p) ∧
    (∃ p, On (curveOf 0 Data.group21Rows) 545 p ∧ 0 < p) ∧
    (¬ ∃ r ∈ curveOf 0 Data.group21Rows, 545 ≤ r.1 ∧ 0 < r.2) ∧
    (∃ r ∈ curveOf 0 Data.group21Rows, 300 ≤ r.1 ∧ 0 < r.2) ∧
    (∃ r ∈ curveOf 0 Data.group21Rows, r.2 = 19) ∧ (∀ r ∈ curveOf 0 Data.group21Rows, r.2 ≤ 19) ∧
    IsBar u (.quantity ⟨19, PUnit.bar, 3⟩) 19 ∧ IsDegC u (.quantity ⟨545, PUnit.degC, 3⟩) 545 := by
  refine ⟨⟨("304", "2.1", 200, 78, 28), by decide, rfl, _, List.mem_cons_self, rfl, 0, rfl, rfl⟩, ?_, ?_, ?_, ?_, ?_, ?_,
    ⟨rfl, by simp [PUnit.bar]⟩, ⟨rfl, by simp [PUnit.degC]⟩⟩
  · refine ⟨_, ⟨[(-29, 19)], (38, 19), (50, 18.3), (curveOf 0 Data.group21Rows).drop 3, ?_, by norm_num, by norm_num,
      rfl⟩, by norm_num⟩
    norm_num [curveOf, Data.group21Rows, cellBar]
  · refine ⟨_, ⟨(curveOf 0 Data.group21Rows).take 16, (538, 1.4), (550, 0), (curveOf 0 Data.group21Rows).drop 18, ?_,
      by norm_num, by norm_num, rfl⟩, by norm_num⟩
    norm_num [curveOf, Data.group21Rows, cellBar]
  · norm_num [curveOf, Data.group21Rows, cellBar]
  · norm_num [curveOf, Data.group21Rows, cellBar]
  · norm_num [curveOf, Data.group21Rows, cellBar]
  · norm_num [curveOf, Data.group21Rows, cellBar]

end Pypbomb.Flange
