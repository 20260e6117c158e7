/-
C139: a lighter duty never needs a larger flange class.
-/
import Verif.Props.FlangeExact

namespace Pypbomb.Flange
open Quantity

variable {u reg : Registry} {x x' y y' : QIn} {material c' : String} {p p' t t' : ℝ}

/-- Every rating table begins at -29 degC and is not empty. -/
theorem tables_start : ∀ tb ∈ ratingTables, ∃ r ∈ tb.2.2, r.1 = -29 := by decide +kernel

/-- Below a temperature of the table, down to -29 degC, the temperature is in the table, and the rating is no lower. -/
theorem On.cooler {tb : String × List String × List (Int × List (Option Nat))} (ht : tb ∈ ratingTables) {i : ℕ} (hi : i < 7) {r' : ℝ}
    (ho' : On (curveOf i tb.2.2) t' r') (h29 : -29 ≤ t) (htt : t ≤ t') : ∃ r, On (curveOf i tb.2.2) t r ∧ r' ≤ r := by
  obtain ⟨hinc, hdec, hlen⟩ := curve_facts ht hi
  obtain ⟨-, b, hb, h2⟩ := ho'.range
  obtain ⟨row, hrow, h0⟩ := tables_start tb ht
  obtain ⟨r, ho⟩ := On.exists (t := t) hinc hlen (a := ((row.1 : ℝ), _)) (List.mem_map.mpr ⟨row, hrow, rfl⟩) hb
    (by simp only [h0]; push_cast; linarith) (by linarith)
  refine ⟨r, ho, ?_⟩
  have : npInterp t' (curveOf i tb.2.2) ≤ npInterp t (curveOf i tb.2.2) := npInterp_antitone hinc hdec htt
  rwa [← ho.eq_npInterp hinc, ← ho'.eq_npInterp hinc] at this

/-- C139: if `get_class` finds a class for some pressure and temperature, it finds one for every pressure that is not higher (nor
negative) and every temperature that is not higher (down to -29 degC), and that class is no larger. -/
theorem C139_class_monotone (h : getClass u reg x' y' (.str material) = .ok c') (hx : IsBar reg x p) (hx' : IsBar reg x' p')
    (hy : IsDegC reg y t) (hy' : IsDegC reg y' t') (p0 : 0 ≤ p) (hpp : p ≤ p') (h29 : -29 ≤ t) (htt : t ≤ t') :
    ∃ c n n', getClass u reg x y (.str material) = .ok c ∧ (c, n) ∈ classes ∧ (c', n') ∈ classes ∧ n ≤ n' := by
  obtain ⟨n', cv', r', hn', hc', ho', hp', hall'⟩ := C42_smallest_sufficient h hx' hy'
  obtain ⟨tb, ht, i, hi7, hi, rfl⟩ := hc'.table
  obtain ⟨r, ho, hrr⟩ := On.cooler ht.1 hi7 ho' h29 htt
  have h6 : tb.2.1[6]? = some "2500" := by rw [table_cols tb ht.1]; rfl
  obtain ⟨r6, o6⟩ := ho.column ht.1 (j := 6) (by norm_num)
  have hle : r ≤ r6 := by
    rcases Nat.lt_or_ge i 6 with h | h
    · exact (on_lt ht.1 hi7 (by norm_num) h ho o6).le
    · obtain rfl : i = 6 := by omega
      exact (ho.unique (curve_facts ht.1 hi7).1 o6).le
  obtain ⟨c, hc⟩ := (C44_outcome (u := u) hx hy p0 (ht.curve h6) o6).2.2.mpr (by linarith)
  obtain ⟨n, -, -, hn, -, -, -, hall⟩ := C42_smallest_sufficient hc hx hy
  refine ⟨c, n, n', hc, hn, hn', ?_⟩
  by_contra hlt
  obtain ⟨cv1, r1, hc1, ho1, a1, -⟩ := hall c' n' hn'
  obtain ⟨j, hj7, hj, rfl⟩ := curve_eq ht hc1
  obtain rfl : i = j := (class_order ht.1 hi hj hn' hn').2.mp rfl
  have := a1 (not_le.mp hlt)
  rw [ho1.unique (curve_facts ht.1 hi7).1 ho] at this
  linarith

/-- C139: the class found for the heaviest duty is rated for every lighter one: on the way up to the design conditions, too. -/
theorem C139_suffices_throughout (h : getClass u reg x' y' (.str material) = .ok c') (hx' : IsBar reg x' p')
    (hy : IsDegC u y t) (hy' : IsDegC reg y' t') (hpp : p ≤ p') (h29 : -29 ≤ t) (htt : t ≤ t') :
    ∃ q, getMaxPressure u c' y (.str material) = .ok q ∧ q.unit.dim = Dim.pressure ∧ p * 100000 ≤ q.phys := by
  obtain ⟨n', cv', r', hn', hc', ho', hp', hall'⟩ := C42_smallest_sufficient h hx' hy'
  obtain ⟨tb, ht, i, hi7, hi, rfl⟩ := hc'.table
  obtain ⟨r, ho, hrr⟩ := On.cooler ht.1 hi7 ho' h29 htt
  obtain ⟨q, e, hq, -⟩ := C45_interpolates (u := u) hc' hy ho
  exact ⟨q, e, hq.dim, by rw [hq.phys]; linarith⟩

/-- A case: 304, designed for 85.3 bar at 400 degC, class 900.  The same flange stands 60 bar at 20 degC, and `get_class` asks for no more
there. -/
example (u reg : Registry) : ∃ c n, getClass u reg (.quantity ⟨60, PUnit.bar, 3⟩) (.quantity ⟨20, PUnit.degC, 3⟩) (.str "304") = .ok c ∧
    (c, n) ∈ classes ∧ n ≤ 900 := by
  have hc : IsCurve "304" "900" (curveOf 4 Data.group21Rows) :=
    ⟨("304", "2.1", 200, 78, 28), by decide, rfl, _, List.mem_cons_self, rfl, 4, rfl, rfl⟩
  have ho : On (curveOf 4 Data.group21Rows) 400 85.3 := by
    refine ⟨curveOf 4 (Data.group21Rows.take 11), (400, 85.3), (425, 84), curveOf 4 (Data.group21Rows.drop 13),
      ?_, by norm_num, by norm_num, by norm_num⟩
    norm_num [curveOf, Data.group21Rows, cellBar]
  have hx' : IsBar reg (.quantity ⟨85.3, PUnit.bar, 3⟩) 85.3 := ⟨rfl, by norm_num [PUnit.bar]⟩
  have hy' : IsDegC reg (.quantity ⟨400, PUnit.degC, 3⟩) 400 := ⟨rfl, by norm_num [PUnit.degC]⟩
  obtain ⟨c, n, n', h1, h2, h3, h4⟩ := C139_class_monotone (p := 60) (t := 20) (x := .quantity ⟨60, PUnit.bar, 3⟩)
    (y := .quantity ⟨20, PUnit.degC, 3⟩) (C43_rating_selects_class (u := u) hx' hy' hc ho)
    ⟨rfl, by norm_num [PUnit.bar]⟩ hx' ⟨rfl, by norm_num [PUnit.degC]⟩ hy' (by norm_num) (by norm_num) (by norm_num) (by norm_num)
  refine ⟨c, n, h1, h2, ?_⟩
  have key : ∀ b ∈ classes, b.1 = "900" → b.2 = 900 := by decide
  have := key _ h3 rfl
  simp only at this
  omega

end Pypbomb.Flange
