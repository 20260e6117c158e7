/-
Properties C42-C49: flange ratings.
-/
import Verif.Lemmas.Flange

namespace Pypbomb.Flange
open Quantity

variable {u reg : Registry} {material cls c c' : String} {curve curve' : List (ℝ × ℝ)} {x y : QIn}
  {t t' p : ℝ}

/-- What a successful `get_class` call says about its arguments. -/
theorem getClass_inv {M : Tube.MatIn} (h : getClass u reg x y M = .ok c) :
    ∃ m tb p t, M = .str m ∧ IsTable m tb ∧ IsBar reg x p ∧ IsDegC reg y t ∧ 0 ≤ p ∧
      0 ≤ t + 27315 / 100 := by
  simp only [getClass, withLimits_eq, bind_eq_ok] at h
  obtain ⟨q, e, w, e', ⟨⟩, c1, ⟨⟩, c2, -, -, -, -, g, hg, -⟩ := h
  simp only [lookupGroup, bind_eq_ok] at hg
  obtain ⟨⟨⟩, hm, -⟩ := hg
  cases M with
  | other r => simp [checkMaterial] at hm
  | str m =>
    simp only [checkMaterial] at hm
    split at hm
    · rename_i hin
      obtain ⟨row, hr, he⟩ := List.mem_map.mp hin
      obtain ⟨tb, ht⟩ := table_exists ⟨row, hr, he⟩
      obtain ⟨hd, h0⟩ := (checkQ_ok_iff lookup_pressure).mp c1
      obtain ⟨hd', h0'⟩ := (checkQ_ok_iff lookup_temperature).mp c2
      obtain ⟨n1, -⟩ := denotes_of_parse e
      obtain ⟨n2, -⟩ := denotes_of_parse e'
      rw [hd] at n1
      rw [hd'] at n2
      refine ⟨m, tb, q.phys / 100000, w.phys - 27315 / 100, rfl, ht, ?_, ?_, ?_, ?_⟩
      · unfold IsBar; rwa [div_mul_cancel₀ _ (by norm_num)]
      · unfold IsDegC; rwa [sub_add_cancel]
      · have := h0 rfl; positivity
      · have := h0' rfl; linarith
    · simp at hm

theorem IsBar.unique {x : QIn} {p p' : ℝ} (h : IsBar reg x p) (h' : IsBar reg x p') : p = p' := by
  have := (Denotes.unique h h').2
  linarith

theorem IsDegC.unique {x : QIn} {t t' : ℝ} (h : IsDegC reg x t) (h' : IsDegC reg x t') : t = t' := by
  have := (Denotes.unique h h').2
  linarith

/-- The class found, in terms of the rating curves. -/
theorem getClass_split (h : getClass u reg x y (.str material) = .ok c) (hx : IsBar reg x p)
    (hy : IsDegC reg y t) :
    ∃ tb, IsTable material tb ∧ 0 ≤ p ∧ ∃ l1 l2, classes.map (·.1) = l1 ++ c :: l2 ∧
      (∃ r, On (curveOf 6 tb.2.2) t r) ∧
      p * 100000 ≤ interpolate (t + 27315 / 100) (curveSI (frameOf tb.2) c) ∧
      ∀ c' ∈ l1, interpolate (t + 27315 / 100) (curveSI (frameOf tb.2) c') < p * 100000 := by
  obtain ⟨m, tb, p', t', em, ht, hx', hy', p0, t0⟩ := getClass_inv h
  simp only [Tube.MatIn.str.injEq] at em
  subst em
  obtain rfl := hx.unique hx'
  obtain rfl := hy.unique hy'
  obtain ⟨e1, e2, e3⟩ := getClass_eval (u := u) ht hx hy p0 t0
  by_cases hb : ∃ b ∈ curveOf 6 tb.2.2, p ≤ b.2
  · by_cases ho : ∃ r, On (curveOf 6 tb.2.2) t r
    · rw [e3 hb ho] at h
      obtain ⟨l1, l2, h1, h2, h3⟩ := firstClass_ok ht.1 h
      exact ⟨tb, ht, p0, l1, l2, h1, ho, h2, h3⟩
    · rw [e2 hb ho] at h; simp at h
  · rw [e1 (by push Not at hb; exact hb)] at h; simp at h

theorem curve_eq {tb : String × List String × List (Int × List (Option Nat))}
    (ht : IsTable material tb) (hc : IsCurve material cls curve) :
    ∃ i < 7, tb.2.1[i]? = some cls ∧ curve = curveOf i tb.2.2 := by
  obtain ⟨tb', ht', i, hi, h1, h2⟩ := hc.table
  obtain rfl := table_unique ht ht'
  exact ⟨i, hi, h1, h2⟩

theorem class_index {tb : String × List String × List (Int × List (Option Nat))}
    (ht : IsTable material tb) (hc : c ∈ classes.map (·.1)) : ∃ i < 7, tb.2.1[i]? = some c := by
  rw [← table_cols tb ht.1] at hc
  obtain ⟨i, hi⟩ := List.mem_iff_getElem?.mp hc
  refine ⟨i, ?_, hi⟩
  have := (List.getElem?_eq_some_iff.mp hi).1
  rw [table_cols tb ht.1] at this
  exact this

theorem interpolate_class {tb : String × List String × List (Int × List (Option Nat))}
    (ht : IsTable material tb) {i : ℕ} (hi7 : i < 7) (hi : tb.2.1[i]? = some c) {r : ℝ}
    (ho : On (curveOf i tb.2.2) t r) :
    interpolate (t + 27315 / 100) (curveSI (frameOf tb.2) c) = r * 100000 := by
  rw [curveSI_eq ht.1 hi, interpolate_si (curve_facts ht.1 hi7).1 ho]

/-- In every table, in every row, a larger class has a larger rating. -/
theorem tables_increasing : ∀ tb ∈ ratingTables, ∀ i < 7, ∀ j < 7, i < j →
    List.Forall₂ (fun a b : ℤ × ℕ => a.1 = b.1 ∧ a.2 < b.2) (intCurve i tb.2.2) (intCurve j tb.2.2) := by
  decide +kernel

theorem on_lt {tb : String × List String × List (Int × List (Option Nat))}
    (ht : tb ∈ ratingTables) {i j : ℕ} (hi : i < 7) (hj : j < 7) (hij : i < j) {r r' : ℝ}
    (ho : On (curveOf i tb.2.2) t r) (ho' : On (curveOf j tb.2.2) t r') : r < r' := by
  obtain ⟨h1, -, hl⟩ := curve_facts ht hi
  obtain ⟨h2, -, -⟩ := curve_facts ht hj
  rw [ho.eq_npInterp h1, ho'.eq_npInterp h2]
  apply npInterp_strict h1
  · intro hn; rw [hn] at hl; simp at hl
  · rw [curveOf_eq, curveOf_eq, List.forall₂_map_left_iff, List.forall₂_map_right_iff]
    refine List.Forall₂.imp ?_ (tables_increasing tb ht i hi j hj hij)
    rintro a b ⟨h1, h2⟩
    have : (a.2 : ℝ) < b.2 := by exact_mod_cast h2
    exact ⟨by simp [toReal, h1], by simp only [toReal]; linarith⟩

/-- Index and class number are ordered alike. -/
theorem class_order {tb : String × List String × List (Int × List (Option Nat))}
    (ht : tb ∈ ratingTables) {i j : ℕ} (hi : tb.2.1[i]? = some c) (hj : tb.2.1[j]? = some c')
    {n n' : ℕ} (hn : (c, n) ∈ classes) (hn' : (c', n') ∈ classes) : (n < n' ↔ i < j) ∧ (n = n' ↔ i = j) := by
  rw [table_cols tb ht] at hi hj
  have hi7 := (List.getElem?_eq_some_iff.mp hi).1
  have hj7 := (List.getElem?_eq_some_iff.mp hj).1
  have key : ∀ i < 7, ∀ j < 7, ∀ a ∈ classes, ∀ b ∈ classes,
      (classes.map (·.1))[i]? = some a.1 → (classes.map (·.1))[j]? = some b.1 →
      (a.2 < b.2 ↔ i < j) ∧ (a.2 = b.2 ↔ i = j) := by decide +kernel
  exact key i hi7 j hj7 _ hn _ hn' hi hj

/-- C42: whenever `get_class` returns a class, that class's rating at the temperature is at least the
pressure; every class with a smaller number is rated below it, every class with a larger number at
least as high.  (Inputs in any units.) -/
theorem C42_smallest_sufficient (h : getClass u reg x y (.str material) = .ok c) (hx : IsBar reg x p)
    (hy : IsDegC reg y t) :
    ∃ n curve r, (c, n) ∈ classes ∧ IsCurve material c curve ∧ On curve t r ∧ p ≤ r ∧
      ∀ c' n', (c', n') ∈ classes → ∃ curve' r', IsCurve material c' curve' ∧ On curve' t r' ∧
        (n' < n → r' < p) ∧ (n < n' → p < r') := by
  obtain ⟨tb, ht, p0, l1, l2, hl, ⟨r0, h0⟩, h1, h2⟩ := getClass_split h hx hy
  have hcm : c ∈ classes.map (·.1) := by rw [hl]; simp
  obtain ⟨i, hi7, hi⟩ := class_index ht hcm
  obtain ⟨⟨c1, n⟩, hn, rfl⟩ := List.mem_map.mp hcm
  obtain ⟨r, ho⟩ := h0.column ht.1 hi7
  rw [interpolate_class ht hi7 hi ho] at h1
  have hpr : p ≤ r := by linarith
  refine ⟨n, _, r, hn, ht.curve hi, ho, hpr, ?_⟩
  intro c' n' hn'
  obtain ⟨j, hj7, hj⟩ := class_index ht (List.mem_map.mpr ⟨_, hn', rfl⟩)
  obtain ⟨r', ho'⟩ := h0.column ht.1 hj7
  refine ⟨_, r', ht.curve hj, ho', ?_, ?_⟩
  · intro hlt
    have := h2 _ ((classes_split hl hn hn').1 hlt)
    rw [interpolate_class ht hj7 hj ho'] at this
    linarith
  · intro hlt
    have := on_lt ht.1 hi7 hj7 ((class_order ht.1 hi hj hn hn').1.mp hlt) ho ho'
    linarith

/-- C43: for a pressure that is not negative and any temperature, `get_class` returns a class if and
only if it is the first class (by number) for which `get_max_pressure` at that temperature returns at
least the pressure. -/
theorem C43_agree (hx : IsBar reg x p) (hy : IsDegC reg y t) (hy' : IsDegC u y t) (p0 : 0 ≤ p)
    (hmat : ∃ row ∈ Data.materialRows, row.1 = material) :
    getClass u reg x y (.str material) = .ok c ↔
      ∃ n q, (c, n) ∈ classes ∧ getMaxPressure u c y (.str material) = .ok q ∧ p * 100000 ≤ q.phys ∧
        ∀ c' n' q', (c', n') ∈ classes → n' < n → getMaxPressure u c' y (.str material) = .ok q' →
          q'.phys < p * 100000 := by
  have hphys : ∀ v r, (⟨v, PUnit.pascal, r⟩ : Quantity).phys = v := by
    intro v r; simp [Quantity.phys, PUnit.pascal, PUnit.base]
  constructor
  · intro h
    obtain ⟨n, cv, r, hn, hc, ho, hpr, hall⟩ := C42_smallest_sufficient h hx hy
    refine ⟨n, _, hn, (getMaxPressure_eval hc hy').1 r ho, by rw [hphys]; linarith, ?_⟩
    intro c' n' q' hn' hlt hq'
    obtain ⟨cv', r', hc', ho', h1, -⟩ := hall c' n' hn'
    rw [(getMaxPressure_eval hc' hy').1 r' ho', Except.ok.injEq] at hq'
    subst hq'
    rw [hphys]
    have := h1 hlt
    linarith
  · rintro ⟨n, q, hn, hq, hle, hall⟩
    obtain ⟨tb, ht⟩ := table_exists hmat
    have hcm : c ∈ classes.map (·.1) := List.mem_map.mpr ⟨_, hn, rfl⟩
    obtain ⟨i, hi7, hi⟩ := class_index ht hcm
    have hev := getMaxPressure_eval (ht.curve hi) hy'
    by_cases ho : ∃ r, On (curveOf i tb.2.2) t r
    · obtain ⟨r, ho⟩ := ho
      rw [hev.1 r ho, Except.ok.injEq] at hq
      subst hq
      rw [hphys] at hle
      obtain ⟨r6, h6⟩ := ho.column ht.1 (j := 6) (by norm_num)
      -- the pressure is below the largest rating of the largest class
      have hb : ∃ b ∈ curveOf 6 tb.2.2, p ≤ b.2 := by
        have h1 : r ≤ r6 := by
          rcases Nat.lt_or_ge i 6 with h | h
          · exact (on_lt ht.1 hi7 (by norm_num) h ho h6).le
          · obtain rfl : i = 6 := by omega
            exact (ho.unique (curve_facts ht.1 hi7).1 h6).le
        obtain ⟨hinc, hdec, hlen⟩ := curve_facts ht.1 (i := 6) (by norm_num)
        obtain ⟨b, l, hbl⟩ := List.exists_cons_of_ne_nil (l := curveOf 6 tb.2.2)
          (by intro hn; rw [hn] at hlen; simp at hlen)
        refine ⟨b, by rw [hbl]; simp, ?_⟩
        rw [hbl] at hinc hdec h6
        have := npInterp_le_head hinc hdec t
        rw [← h6.eq_npInterp hinc] at this
        linarith
      have t0 : 0 ≤ t + 27315 / 100 := by
        obtain ⟨⟨a, ha, h1⟩, -⟩ := ho.range
        obtain ⟨r, hr, rfl⟩ := List.mem_map.mp ha
        have key : ∀ tb ∈ ratingTables, ∀ r ∈ tb.2.2, -29 ≤ r.1 := by decide +kernel
        have := key tb ht.1 r hr
        have : (-29 : ℝ) ≤ r.1 := by exact_mod_cast this
        simp only at h1
        linarith
      rw [(getClass_eval (u := u) ht hx hy p0 t0).2.2 hb ⟨r6, h6⟩]
      obtain ⟨l1, l2, hl⟩ := List.append_of_mem hcm
      refine firstClass_of ht.1 hl ?_ ?_
      · rw [interpolate_class ht hi7 hi ho]; exact hle
      · intro c' hc'
        obtain ⟨⟨c1, n'⟩, hn', rfl⟩ := List.mem_map.mp
          (show c' ∈ classes.map (·.1) by rw [hl]; simp [hc'])
        obtain ⟨j, hj7, hj⟩ := class_index ht (List.mem_map.mpr ⟨_, hn', rfl⟩)
        obtain ⟨r', ho'⟩ := ho.column ht.1 hj7
        rw [interpolate_class ht hj7 hj ho']
        have := hall _ n' _ hn' ((classes_split hl hn hn').2 hc')
          ((getMaxPressure_eval (ht.curve hj) hy').1 r' ho')
        rwa [hphys] at this
    · rw [hev.2 ho] at hq; simp at hq

/-- A case for C42, C43: 85.3 bar at 400 degC, material 304 (group 2.1): class 900 is rated exactly 85.3
bar there. -/
example : IsCurve "304" "900" (curveOf 4 Data.group21Rows) ∧ On (curveOf 4 Data.group21Rows) 400 85.3 ∧
    ("900", 900) ∈ classes ∧ IsBar reg (.quantity ⟨8530, ⟨1000, 0, Dim.pressure, by norm_num⟩, 3⟩) 85.3 ∧
    IsDegC reg (.quantity ⟨400, PUnit.degC, 3⟩) 400 := by
  refine ⟨⟨("304", "2.1", 200, 78, 28), by decide, rfl, _, List.mem_cons_self, rfl, 4, rfl, rfl⟩,
    ?_, by decide, ⟨rfl, by norm_num⟩, ⟨rfl, by norm_num [PUnit.degC]⟩⟩
  refine ⟨curveOf 4 (Data.group21Rows.take 11), (400, 85.3), (425, 84), curveOf 4 (Data.group21Rows.drop 13),
    ?_, by norm_num, by norm_num, by norm_num⟩
  norm_num [curveOf, Data.group21Rows, cellBar]

/-- The full C44 says: if no class is rated for the pressure at the temperature, ValueError.  It is
false: below the largest rating of the whole table, `get_class` raises IndexError instead. -/
theorem C44_violated (hx : IsBar reg x p) (hy : IsDegC reg y t) (p0 : 0 ≤ p)
    (hc : IsCurve material "2500" curve) (hmax : ∃ b ∈ curve, p ≤ b.2)
    (hno : ∃ r, On curve t r ∧ r < p) :
    getClass u reg x y (.str material) = .error .indexError := by
  obtain ⟨tb, ht, -⟩ := hc.table
  obtain ⟨i, hi7, hi, rfl⟩ := curve_eq ht hc
  have h6 : tb.2.1[6]? = some "2500" := by rw [table_cols tb ht.1]; rfl
  obtain rfl : i = 6 :=
    (class_order ht.1 hi h6 (n := 2500) (n' := 2500) (by decide) (by decide)).2.mp rfl
  obtain ⟨r, ho, hr⟩ := hno
  have t0 : 0 ≤ t + 27315 / 100 := by
    obtain ⟨⟨a, ha, h1⟩, -⟩ := ho.range
    obtain ⟨r, hr, rfl⟩ := List.mem_map.mp ha
    have key : ∀ tb ∈ ratingTables, ∀ r ∈ tb.2.2, -29 ≤ r.1 := by decide +kernel
    have : (-29 : ℝ) ≤ r.1 := by exact_mod_cast key tb ht.1 r hr
    simp only at h1
    linarith
  rw [(getClass_eval (u := u) ht hx hy p0 t0).2.2 hmax ⟨r, ho⟩]
  apply firstClass_none ht.1
  intro c hcm
  obtain ⟨j, hj7, hj⟩ := class_index ht hcm
  obtain ⟨r', ho'⟩ := ho.column ht.1 hj7
  rw [interpolate_class ht hj7 hj ho']
  have : r' ≤ r := by
    rcases Nat.lt_or_ge j 6 with h | h
    · exact (on_lt ht.1 hj7 (by norm_num) h ho' ho).le
    · obtain rfl : j = 6 := by omega
      exact (ho'.unique (curve_facts ht.1 hj7).1 ho).le
  linarith

/-- The case of C44 exists: 300 bar, 304L at 450 degC (class 2500 is rated 195.1 bar there, 344.7 bar
when cold). -/
example : IsCurve "304L" "2500" (curveOf 6 Data.group23Rows) ∧
    (∃ b ∈ curveOf 6 Data.group23Rows, (300 : ℝ) ≤ b.2) ∧
    ∃ r, On (curveOf 6 Data.group23Rows) 450 r ∧ r < 300 := by
  refine ⟨⟨("304L", "2.3", 200, 78, 28), by decide, rfl, ("2.3", Data.group23Cols, Data.group23Rows),
    by decide, rfl, 6, rfl, rfl⟩, ⟨(-29, 344.7), ?_, by norm_num⟩, 195.1, ?_, by norm_num⟩
  · norm_num [curveOf, Data.group23Rows, cellBar]
  · refine ⟨curveOf 6 (Data.group23Rows.take 12), (425, 198.8), (450, 195.1), [], ?_, by norm_num,
      by norm_num, by norm_num⟩
    norm_num [curveOf, Data.group23Rows, cellBar]

/-- C44, proved part: a pressure above every rating of the largest class raises ValueError, a negative
pressure or temperature and an unknown material raise, a temperature outside the table raises
ValueError; and whenever no class suffices, some exception is raised. -/
theorem C44_partial (hx : IsBar reg x p) (hy : IsDegC reg y t) :
    (IsCurve material "2500" curve → 0 ≤ p → 0 ≤ t + 27315 / 100 → (∀ b ∈ curve, b.2 < p) →
      getClass u reg x y (.str material) = .error (.valueError "Pressure out of range.")) ∧
    (IsCurve material "2500" curve → 0 ≤ p → 0 ≤ t + 27315 / 100 →
      ((∀ b ∈ curve, b.1 < t) ∨ ∀ b ∈ curve, t < b.1) →
      IsValueError (getClass u reg x y (.str material))) ∧
    (p < 0 ∨ t + 27315 / 100 < 0 → IsValueError (getClass u reg x y (.str material))) ∧
    ((∀ row ∈ Data.materialRows, row.1 ≠ material) →
      IsValueError (getClass u reg x y (.str material))) ∧
    ((∀ c cv r, IsCurve material c cv → On cv t r → r < p) →
      Raises (getClass u reg x y (.str material))) := by
  have six : ∀ {tb}, IsTable material tb → IsCurve material "2500" curve → curve = curveOf 6 tb.2.2 := by
    intro tb ht hc
    obtain ⟨i, hi7, hi, rfl⟩ := curve_eq ht hc
    have h6 : tb.2.1[6]? = some "2500" := by rw [table_cols tb ht.1]; rfl
    obtain rfl : i = 6 :=
      (class_order ht.1 hi h6 (n := 2500) (n' := 2500) (by decide) (by decide)).2.mp rfl
    rfl
  refine ⟨?_, ?_, ?_, ?_, ?_⟩
  · intro hc p0 t0 hall
    obtain ⟨tb, ht, -⟩ := hc.table
    rw [six ht hc] at hall
    exact (getClass_eval (u := u) ht hx hy p0 t0).1 hall
  · intro hc p0 t0 hall
    obtain ⟨tb, ht, -⟩ := hc.table
    rw [six ht hc] at hall
    obtain ⟨e1, e2, e3⟩ := getClass_eval (u := u) ht hx hy p0 t0
    have hno : ¬ ∃ r, On (curveOf 6 tb.2.2) t r := by
      rintro ⟨r, ho⟩
      obtain ⟨⟨a, ha, h1⟩, b, hb, h2⟩ := ho.range
      rcases hall with h | h
      · have := h b hb; linarith
      · have := h a ha; linarith
    by_cases hb : ∃ b ∈ curveOf 6 tb.2.2, p ≤ b.2
    · exact ⟨_, e2 hb hno⟩
    · exact ⟨_, e1 (by push Not at hb; exact hb)⟩
  · intro hneg
    obtain ⟨q, e, hd, hp, hr⟩ := parse_any hx
    obtain ⟨w, e', hd', hp', hr'⟩ := parse_any hy
    simp only [getClass, withLimits_eq, e, e', ok_bind, checkQ_eq q _ _ lookup_pressure, hp, hd,
      checkQ_eq w _ _ lookup_temperature, hp', hd', true_and, if_true]
    rcases lt_or_ge (p * 100000) 0 with h | h
    · rw [if_pos h]; exact ⟨_, rfl⟩
    · have h' : t + 27315 / 100 < 0 := hneg.resolve_left (by intro h2; linarith)
      rw [if_neg (not_lt.mpr h), if_pos h']; exact ⟨_, rfl⟩
  · intro hm
    obtain ⟨q, e, hd, hp, hr⟩ := parse_any hx
    obtain ⟨w, e', hd', hp', hr'⟩ := parse_any hy
    have hmat : ∀ lim, lookupGroup lim (.str material) =
        .error (.valueError (material ++ " not found in materials. Try Flange.available_materials")) := by
      intro lim
      simp only [lookupGroup, checkMaterial]
      rw [if_neg]
      · rfl
      · intro hin
        obtain ⟨r, hr, he⟩ := List.mem_map.mp hin
        exact hm r hr he
    have pq : ∀ z : Quantity, parseQ (.quantity z) u = .ok ⟨z.mag, z.unit, u.id⟩ := fun _ => rfl
    simp only [getClass, withLimits_eq, e, e', ok_bind, checkQ_eq q _ _ lookup_pressure, hp, hd,
      checkQ_eq w _ _ lookup_temperature, hp', hd', true_and, if_true, pq, hmat]
    split
    · exact ⟨_, rfl⟩
    · simp only [ok_bind]
      split
      · exact ⟨_, rfl⟩
      · exact ⟨_, rfl⟩
  · intro hall
    cases hres : getClass u reg x y (.str material) with
    | error e => exact ⟨e, rfl⟩
    | ok c =>
      obtain ⟨n, cv, r, -, hc, ho, hpr, -⟩ := C42_smallest_sufficient hres hx hy
      have := hall c cv r hc ho
      linarith

/-- C44, exactly: for every pressure and every temperature of the table, ValueError exactly above the largest rating of
class 2500, IndexError exactly between its rating at the temperature and its largest rating, and a class otherwise. -/
theorem C44_outcome {r : ℝ} (hx : IsBar reg x p) (hy : IsDegC reg y t) (p0 : 0 ≤ p)
    (hc : IsCurve material "2500" curve) (ho : On curve t r) :
    (IsValueError (getClass u reg x y (.str material)) ↔ ∀ b ∈ curve, b.2 < p) ∧
    (getClass u reg x y (.str material) = .error .indexError ↔ (∃ b ∈ curve, p ≤ b.2) ∧ r < p) ∧
    ((∃ c, getClass u reg x y (.str material) = .ok c) ↔ p ≤ r) := by
  have t0 : 0 ≤ t + 27315 / 100 := by
    obtain ⟨tb, ht, i, hi7, hi, rfl⟩ := hc.table
    obtain ⟨⟨a, ha, h1⟩, -⟩ := ho.range
    obtain ⟨r, hr, rfl⟩ := List.mem_map.mp ha
    have key : ∀ tb ∈ ratingTables, ∀ r ∈ tb.2.2, -29 ≤ r.1 := by decide +kernel
    have : (-29 : ℝ) ≤ r.1 := by exact_mod_cast key tb ht.1 r hr
    simp only at h1
    linarith
  have hA : (∀ b ∈ curve, b.2 < p) → IsValueError (getClass u reg x y (.str material)) :=
    fun h => ⟨_, (C44_partial (u := u) (material := material) (curve := curve) hx hy).1 hc p0 t0 h⟩
  have hB : (∃ b ∈ curve, p ≤ b.2) → r < p → getClass u reg x y (.str material) = .error .indexError :=
    fun h h' => C44_violated hx hy p0 hc h ⟨r, ho, h'⟩
  have hle : ∃ b ∈ curve, r ≤ b.2 := by
    obtain ⟨hinc, hdec, hlen⟩ := hc.facts
    obtain ⟨b, l, rfl⟩ := List.exists_cons_of_ne_nil (l := curve) (by intro hn; rw [hn] at hlen; simp at hlen)
    refine ⟨b, by simp, ?_⟩
    rw [ho.eq_npInterp hinc]
    exact npInterp_le_head hinc hdec t
  have hC : p ≤ r → ∃ c, getClass u reg x y (.str material) = .ok c := by
    intro h
    obtain ⟨tb, ht, -⟩ := hc.table
    obtain ⟨i, hi7, hi, rfl⟩ := curve_eq ht hc
    have h6 : tb.2.1[6]? = some "2500" := by rw [table_cols tb ht.1]; rfl
    obtain rfl : i = 6 :=
      (class_order ht.1 hi h6 (n := 2500) (n' := 2500) (by decide) (by decide)).2.mp rfl
    obtain ⟨b, hb, hbr⟩ := hle
    rw [(getClass_eval (u := u) ht hx hy p0 t0).2.2 ⟨b, hb, h.trans hbr⟩ ⟨r, ho⟩]
    unfold firstClass
    have hm : "2500" ∈ (frameOf tb.2).cols.filter (fun c => decide (p * 100000 ≤
        interpolate (t + 27315 / 100) (curveSI (frameOf tb.2) c))) := by
      rw [List.mem_filter]
      refine ⟨List.mem_of_getElem? h6, ?_⟩
      rw [interpolate_class ht hi7 h6 ho, decide_eq_true_eq]
      linarith
    split
    · rename_i h0; rw [h0] at hm; simp at hm
    · exact ⟨_, rfl⟩
  have hcases : (∀ b ∈ curve, b.2 < p) ∨ ((∃ b ∈ curve, p ≤ b.2) ∧ r < p) ∨ p ≤ r := by
    by_cases h : ∃ b ∈ curve, p ≤ b.2
    · rcases lt_or_ge r p with h' | h'
      · exact .inr (.inl ⟨h, h'⟩)
      · exact .inr (.inr h')
    · push Not at h; exact .inl h
  obtain ⟨b, hb, hbr⟩ := hle
  refine ⟨⟨fun ⟨e, h⟩ => ?_, hA⟩, ⟨fun h => ?_, fun h => hB h.1 h.2⟩, ⟨fun ⟨c, h⟩ => ?_, hC⟩⟩
  · rcases hcases with h' | h' | h'
    · exact h'
    · rw [hB h'.1 h'.2] at h; simp at h
    · obtain ⟨c, h2⟩ := hC h'; rw [h2] at h; simp at h
  · rcases hcases with h' | h' | h'
    · obtain ⟨e, h2⟩ := hA h'; rw [h2] at h; simp at h
    · exact h'
    · obtain ⟨c, h2⟩ := hC h'; rw [h2] at h; simp at h
  · rcases hcases with h' | h' | h'
    · obtain ⟨e, h2⟩ := hA h'; rw [h2] at h; simp at h
    · rw [hB h'.1 h'.2] at h; simp at h
    · exact h'

/-- C43: asking for exactly the rating of a class at a temperature selects that class, for every class,
temperature of the table and unit. -/
theorem C43_rating_selects_class (hx : IsBar reg x p) (hy : IsDegC reg y t) (hc : IsCurve material c curve)
    (ho : On curve t p) : getClass u reg x y (.str material) = .ok c := by
  obtain ⟨tb, ht, i, hi7, hi, rfl⟩ := hc.table
  have hinc := (curve_facts ht.1 hi7).1
  have h6 : tb.2.1[6]? = some "2500" := by rw [table_cols tb ht.1]; rfl
  obtain ⟨r6, o6⟩ := ho.column ht.1 (j := 6) (by norm_num)
  have p0 : 0 ≤ p := by
    rw [ho.eq_npInterp hinc]
    apply npInterp_ge hinc
    · intro hn; have := (curve_facts ht.1 hi7).2.2; rw [hn] at this; simp at this
    · intro r hr
      obtain ⟨a, -, rfl⟩ := List.mem_map.mp hr
      simp only [cellBar]; positivity
  have hle : p ≤ r6 := by
    rcases Nat.lt_or_ge i 6 with h | h
    · exact (on_lt ht.1 hi7 (by norm_num) h ho o6).le
    · obtain rfl : i = 6 := by omega
      exact (ho.unique hinc o6).le
  obtain ⟨c1, h1⟩ := (C44_outcome (u := u) hx hy p0 (ht.curve h6) o6).2.2.mpr hle
  obtain ⟨n, -, -, hn, -, -, -, hall⟩ := C42_smallest_sufficient h1 hx hy
  have hcm : c ∈ classes.map (·.1) := by
    rw [← table_cols tb ht.1]; exact List.mem_of_getElem? hi
  obtain ⟨⟨c2, n2⟩, hn2, rfl⟩ := List.mem_map.mp hcm
  obtain ⟨cv', r', hc', ho', a1, a2⟩ := hall c2 n2 hn2
  obtain ⟨j, hj7, hj, rfl⟩ := curve_eq ht hc'
  obtain rfl : i = j := (class_order ht.1 hi hj hn2 hn2).2.mp rfl
  have e := ho.unique hinc ho'
  have hnn : n = n2 := by
    rcases lt_trichotomy n n2 with h | h | h
    · have := a2 h; linarith
    · exact h
    · have := a1 h; linarith
  subst hnn
  have key : ∀ a ∈ classes, ∀ b ∈ classes, a.2 = b.2 → a.1 = b.1 := by decide +kernel
  have hk : c1 = c2 := key _ hn _ hn2 rfl
  rw [h1, hk]

/-- C45: between two neighbouring tabulated temperatures the rating is the linear interpolation of the
table; the result is in Pa, in the registry of the temperature (the package's own if it was a pair). -/
theorem C45_interpolates (hc : IsCurve material cls curve) (hx : IsDegC u x t) (ho : On curve t p) :
    ∃ q, getMaxPressure u cls x (.str material) = .ok q ∧ HasVal q Dim.pressure (p * 100000) q.reg ∧
      q.unit = PUnit.pascal ∧ (∀ q', x = .quantity q' → q.reg = q'.reg) := by
  refine ⟨_, (getMaxPressure_eval hc hx).1 p ho, ⟨rfl, rfl, by simp [PUnit.pascal, PUnit.base], rfl⟩,
    rfl, ?_⟩
  rintro q' rfl
  rfl

/-- C45: at a tabulated temperature the rating is the tabulated one. -/
theorem C45_at_table {r : ℝ × ℝ} (hc : IsCurve material cls curve) (hr : r ∈ curve)
    (hx : IsDegC u x r.1) :
    ∃ q, getMaxPressure u cls x (.str material) = .ok q ∧ HasVal q Dim.pressure (r.2 * 100000) q.reg := by
  obtain ⟨hinc, -, hlen⟩ := hc.facts
  obtain ⟨p, ho⟩ := On.exists hinc hlen hr hr le_rfl le_rfl
  have hp : p = r.2 := by
    rw [ho.eq_npInterp hinc]
    obtain ⟨pre, suf, rfl⟩ := List.append_of_mem hr
    exact npInterp_knot pre hinc
  subst hp
  obtain ⟨q, e, h, -⟩ := C45_interpolates hc hx ho
  exact ⟨q, e, h⟩

/-- C45: temperatures outside the table raise ValueError, all temperatures inside it return. -/
theorem C45_range (hc : IsCurve material cls curve) (hx : IsDegC u x t) :
    (((∀ b ∈ curve, b.1 < t) ∨ ∀ b ∈ curve, t < b.1) →
      IsValueError (getMaxPressure u cls x (.str material))) ∧
    ((∃ a ∈ curve, a.1 ≤ t) → (∃ b ∈ curve, t ≤ b.1) →
      Returns (getMaxPressure u cls x (.str material))) := by
  obtain ⟨hinc, -, hlen⟩ := hc.facts
  constructor
  · intro h
    refine ⟨_, (getMaxPressure_eval hc hx).2 ?_⟩
    rintro ⟨r, ho⟩
    obtain ⟨⟨a, ha, h1⟩, b, hb, h2⟩ := ho.range
    rcases h with h | h
    · have := h b hb; linarith
    · have := h a ha; linarith
  · rintro ⟨a, ha, h1⟩ ⟨b, hb, h2⟩
    obtain ⟨p, ho⟩ := On.exists hinc hlen ha hb h1 h2
    exact ⟨_, (getMaxPressure_eval hc hx).1 p ho⟩

/-- C45: an unknown material or class raises ValueError. -/
theorem C45_rejects :
    ((∀ row ∈ Data.materialRows, row.1 ≠ material) →
      IsValueError (getMaxPressure u cls x (.str material))) ∧
    ((∃ row ∈ Data.materialRows, row.1 = material) → cls ≠ "Temperature" →
      (∀ cv, ¬ IsCurve material cls cv) → IsValueError (getMaxPressure u cls x (.str material))) := by
  constructor
  · intro hm
    refine ⟨material ++ " not found in materials. Try Flange.available_materials", ?_⟩
    have : lookupGroup lims (.str material) =
        .error (.valueError (material ++ " not found in materials. Try Flange.available_materials")) := by
      simp only [lookupGroup, checkMaterial]
      rw [if_neg]
      · rfl
      · intro hin
        obtain ⟨r, hr, he⟩ := List.mem_map.mp hin
        exact hm r hr he
    simp only [getMaxPressure, withLimits_eq, this, err_bind]
  · intro hm hne hcl
    obtain ⟨tb, ht⟩ := table_exists hm
    have hck : checkClass cls (tb.1, frameOf tb.2) =
        .error (.valueError (cls ++ " not found in group " ++ tb.1 ++ ".")) := by
      unfold checkClass
      rw [if_neg]
      rw [List.mem_cons, not_or]
      refine ⟨hne, ?_⟩
      intro hin
      obtain ⟨i, hi⟩ := List.mem_iff_getElem?.mp (show cls ∈ tb.2.1 from hin)
      exact hcl _ (ht.curve hi)
    refine ⟨cls ++ " not found in group " ++ tb.1 ++ ".", ?_⟩
    simp only [getMaxPressure, withLimits_eq, lookupGroup_eq ht, ok_bind, hck, err_bind]

/-- C45: ratings never increase with temperature. -/
theorem C45_antitone {q q' : Quantity} (hc : IsCurve material cls curve) (hx : IsDegC u x t)
    (hy : IsDegC u y t') (htt : t ≤ t') (h : getMaxPressure u cls x (.str material) = .ok q)
    (h' : getMaxPressure u cls y (.str material) = .ok q') : q'.phys ≤ q.phys := by
  obtain ⟨hinc, hdec, -⟩ := hc.facts
  obtain ⟨a1, a2⟩ := getMaxPressure_eval hc hx
  obtain ⟨b1, b2⟩ := getMaxPressure_eval hc hy
  by_cases ho : ∃ p, On curve t p
  · by_cases ho' : ∃ p, On curve t' p
    · obtain ⟨p, ho⟩ := ho
      obtain ⟨p', ho'⟩ := ho'
      rw [a1 p ho, Except.ok.injEq] at h
      rw [b1 p' ho', Except.ok.injEq] at h'
      subst h h'
      have : npInterp t' curve ≤ npInterp t curve := npInterp_antitone hinc hdec htt
      rw [← ho.eq_npInterp hinc, ← ho'.eq_npInterp hinc] at this
      simp only [Quantity.phys, PUnit.pascal, PUnit.base]
      linarith
    · rw [b2 ho'] at h'; simp at h'
  · rw [a2 ho] at h; simp at h

/-- C45: at every temperature in range, a larger class has a strictly larger rating. -/
theorem C45_class_increasing {q q' : Quantity} {n n' : ℕ} (hn : (c, n) ∈ classes)
    (hn' : (c', n') ∈ classes) (hlt : n < n') (hx : IsDegC u x t)
    (h : getMaxPressure u c x (.str material) = .ok q)
    (h' : getMaxPressure u c' x (.str material) = .ok q')
    (hm : ∃ row ∈ Data.materialRows, row.1 = material) : q.phys < q'.phys := by
  obtain ⟨tb, ht⟩ := table_exists hm
  obtain ⟨i, hi7, hi⟩ := class_index ht (List.mem_map.mpr ⟨_, hn, rfl⟩)
  obtain ⟨j, hj7, hj⟩ := class_index ht (List.mem_map.mpr ⟨_, hn', rfl⟩)
  obtain ⟨a1, a2⟩ := getMaxPressure_eval (ht.curve hi) hx
  obtain ⟨b1, b2⟩ := getMaxPressure_eval (ht.curve hj) hx
  by_cases ho : ∃ p, On (curveOf i tb.2.2) t p
  · obtain ⟨p, ho⟩ := ho
    obtain ⟨p', ho'⟩ := ho.column ht.1 hj7
    rw [a1 p ho, Except.ok.injEq] at h
    rw [b1 p' ho', Except.ok.injEq] at h'
    subst h h'
    have := on_lt ht.1 hi7 hj7 ((class_order ht.1 hi hj hn hn').1.mp hlt) ho ho'
    simp only [Quantity.phys, PUnit.pascal, PUnit.base]
    linarith
  · rw [a2 ho] at h; simp at h

/-- Cases for C45: class 150, material 304, 225 degC lies between rows 200 (13.2 bar) and 250 (12.1). -/
example : IsCurve "304" "150" (curveOf 0 Data.group21Rows) ∧
    On (curveOf 0 Data.group21Rows) 225 12.65 ∧ (200, 13.2) ∈ curveOf 0 Data.group21Rows := by
  refine ⟨⟨("304", "2.1", 200, 78, 28), by decide, rfl, _, List.mem_cons_self, rfl, 0, rfl, rfl⟩, ?_, ?_⟩
  · refine ⟨curveOf 0 (Data.group21Rows.take 5), (200, 13.2), (250, 12.1),
      curveOf 0 (Data.group21Rows.drop 7), ?_, by norm_num, by norm_num, by norm_num⟩
    norm_num [curveOf, Data.group21Rows, cellBar]
  · norm_num [curveOf, Data.group21Rows, cellBar]

/-! ### C46, C47: `get_max_temperature` -/

theorem isBar_pascal (p : ℝ) (r : ℕ) : IsBar u (.quantity ⟨p * 100000, PUnit.pascal, r⟩) p :=
  ⟨rfl, by simp [PUnit.pascal, PUnit.base]⟩

theorem isDegC_kelvin (t : ℝ) (r : ℕ) : IsDegC u (.quantity ⟨t + 27315 / 100, PUnit.kelvin, r⟩) t :=
  ⟨rfl, by simp [PUnit.kelvin, PUnit.base]⟩

theorem phys_kelvin (v : ℝ) (r : ℕ) : (⟨v, PUnit.kelvin, r⟩ : Quantity).phys = v := by
  simp [Quantity.phys, PUnit.kelvin, PUnit.base]

theorem phys_pascal (v : ℝ) (r : ℕ) : (⟨v, PUnit.pascal, r⟩ : Quantity).phys = v := by
  simp [Quantity.phys, PUnit.pascal, PUnit.base]

/-- A temperature strictly above the first row lies in a half-open segment. -/
theorem segment_left {l : List (ℝ × ℝ)} {a r : ℝ × ℝ} {t : ℝ} (h1 : a.1 < t) (hr : r ∈ l)
    (h2 : t ≤ r.1) : ∃ pre c d suf, a :: l = pre ++ c :: d :: suf ∧ c.1 < t ∧ t ≤ d.1 := by
  induction l generalizing a with
  | nil => simp at hr
  | cons b l ih =>
    by_cases hb : t ≤ b.1
    · exact ⟨[], a, b, l, rfl, h1, hb⟩
    · have hr' : r ∈ l := by
        rcases List.mem_cons.mp hr with rfl | h
        · exact absurd h2 hb
        · exact h
      obtain ⟨pre, c, d, suf, h3, h4, h5⟩ := ih (not_le.mp hb) hr'
      exact ⟨a :: pre, c, d, suf, by rw [h3]; rfl, h4, h5⟩

/-- Ratings of a curve never exceed the cold rating, and the cold rating is exceeded by nothing. -/
theorem Shape.le {D Z : List (ℝ × ℝ)} {m : ℝ} (h : Shape curve m D Z) (hd : Inc curve ∧ Dec curve)
    {r : ℝ × ℝ} (hr : r ∈ curve) : r.2 ≤ m := by
  obtain ⟨h1, h2⟩ := hd
  obtain ⟨pre, suf, e⟩ := List.append_of_mem hr
  have hk : npInterp r.1 curve = r.2 := by rw [e] at h1 ⊢; exact npInterp_knot pre h1
  rw [h.eq] at h1 h2 hk
  rw [← hk]
  exact npInterp_le_head h1 h2 r.1

/-- C46, proved part: for every temperature from 50 degC up to the last rated row of the class's curve,
`get_max_temperature` at the rating returned by `get_max_pressure` gives the temperature back.  Missing
from the full statement: temperatures between 38 and 50 degC, and between the last rated and the first
unrated row, where it is false (`C46_violated`). -/
theorem C46_inverse_partial (hc : IsCurve material cls curve) (hx : IsDegC u x t) (h50 : 50 ≤ t)
    (hr : ∃ r ∈ curve, t ≤ r.1 ∧ 0 < r.2) :
    ∃ q q', getMaxPressure u cls x (.str material) = .ok q ∧
      getMaxTemperature u cls (.quantity q) (.str material) = .ok q' ∧
      q'.unit = PUnit.kelvin ∧ q'.phys = t + 27315 / 100 := by
  obtain ⟨tb, ht, i, hi7, hi, rfl⟩ := hc.table
  obtain ⟨m, D, Z, hs⟩ := curve_shape ht.1 hi7
  obtain ⟨hinc, hdec, hlen⟩ := hc.facts
  obtain ⟨d, D', rfl, hd⟩ := hs.head
  obtain ⟨r, hrc, htr, hr0⟩ := hr
  have hrD : r ∈ d :: D' := by
    rw [hs.eq, List.mem_cons, List.mem_cons, List.mem_append] at hrc
    rcases hrc with rfl | rfl | h | h
    · norm_num at htr; linarith
    · norm_num at htr; linarith
    · exact h
    · have := hs.zero r h; linarith
  -- the segment of the curve and of its inverse
  have key : ∃ p pre a b suf, On (curveOf i tb.2.2) t p ∧ (-29, m) :: d :: D' = pre ++ a :: b :: suf ∧
      b.2 ≤ p ∧ p < a.2 ∧ b.1 + (a.1 - b.1) / (a.2 - b.2) * (p - b.2) = t := by
    rcases eq_or_lt_of_le h50 with h | h
    · refine ⟨d.2, [], (-29, m), d, D', ?_, rfl, le_rfl, hs.sdec.1, by rw [← h, hd]; ring⟩
      refine ⟨[(-29, m)], (38, m), d, D' ++ Z, by rw [hs.eq]; rfl, by linarith, by linarith, ?_⟩
      simp only [hd, ← h]
      ring
    · have hrD' : r ∈ D' := by
        rcases List.mem_cons.mp hrD with rfl | h'
        · linarith
        · exact h'
      obtain ⟨pre, a, b, suf, e, h1, h2⟩ := segment_left (a := d) (by rw [hd]; exact h) hrD' htr
      have hab : b.2 < a.2 := SDec.pair hs.sdec.2 e
      have hab1 : a.1 < b.1 := h1.trans_le h2
      have hlam0 : 0 < (t - a.1) / (b.1 - a.1) := div_pos (by linarith) (by linarith)
      have hlam1 : (t - a.1) / (b.1 - a.1) ≤ 1 := by rw [div_le_one (by linarith)]; linarith
      refine ⟨a.2 + (b.2 - a.2) * ((t - a.1) / (b.1 - a.1)), (-29, m) :: pre, a, b, suf, ?_,
        by rw [e]; rfl, ?_, ?_, ?_⟩
      · refine ⟨(-29, m) :: (38, m) :: pre, a, b, suf ++ Z, ?_, h1.le, h2, rfl⟩
        rw [hs.eq, e]; simp
      · nlinarith
      · nlinarith
      · have e1 : a.2 - b.2 ≠ 0 := by linarith
        have e2 : b.1 - a.1 ≠ 0 := by linarith
        field_simp
        ring
  obtain ⟨p, pre, a, b, suf, ho, hE, h1, h2, h3⟩ := key
  have hbm : b ∈ (-29, m) :: d :: D' := by rw [hE]; simp
  have hbc : b ∈ curveOf i tb.2.2 := by
    rw [hs.eq]
    rcases List.mem_cons.mp hbm with rfl | h
    · simp
    · simp only [List.mem_cons, List.mem_append]
      exact Or.inr (Or.inr (Or.inl (List.mem_cons.mp h)))
  have ham : a ∈ (-29, m) :: d :: D' := by rw [hE]; simp
  have hac : a ∈ curveOf i tb.2.2 := by
    rw [hs.eq]
    rcases List.mem_cons.mp ham with rfl | h
    · simp
    · simp only [List.mem_cons, List.mem_append]
      exact Or.inr (Or.inr (Or.inl (List.mem_cons.mp h)))
  refine ⟨_, _, (getMaxPressure_eval hc hx).1 p ho,
    (getMaxTemperature_eval hc (isBar_pascal p _)).1 ⟨b, hbc, h1⟩ ⟨a, hac, h2.le⟩, rfl, ?_⟩
  rw [phys_kelvin, interpolate_inv hs hE h1 h2, h3]

/-- C46 is false between 38 and 50 degC, where every rating curve is strictly decreasing: the value
returned is `50 - 79/12 (50 - T)` degC, colder than `T` — for every material and class. -/
theorem C46_violated (hc : IsCurve material cls curve) (hx : IsDegC u x t) (h1 : 38 < t) (h2 : t < 50) :
    ∃ q q', getMaxPressure u cls x (.str material) = .ok q ∧
      getMaxTemperature u cls (.quantity q) (.str material) = .ok q' ∧
      q'.phys = 50 - 79 / 12 * (50 - t) + 27315 / 100 ∧ q'.phys < t + 27315 / 100 := by
  obtain ⟨tb, ht, i, hi7, hi, rfl⟩ := hc.table
  obtain ⟨m, D, Z, hs⟩ := curve_shape ht.1 hi7
  obtain ⟨d, D', rfl, hd⟩ := hs.head
  have hdm : d.2 < m := hs.sdec.1
  have ho : On (curveOf i tb.2.2) t (m + (d.2 - m) * ((t - 38) / (d.1 - 38))) :=
    ⟨[(-29, m)], (38, m), d, D' ++ Z, by rw [hs.eq]; rfl, h1.le, by rw [hd]; exact h2.le, rfl⟩
  have hmc : (-29, m) ∈ curveOf i tb.2.2 := by rw [hs.eq]; simp
  have hdc : d ∈ curveOf i tb.2.2 := by rw [hs.eq]; simp
  set p := m + (d.2 - m) * ((t - 38) / (d.1 - 38)) with hp
  have p1 : d.2 ≤ p := by rw [hp, hd]; nlinarith
  have p2 : p < m := by rw [hp, hd]; nlinarith
  refine ⟨_, _, (getMaxPressure_eval hc hx).1 p ho,
    (getMaxTemperature_eval hc (isBar_pascal p _)).1 ⟨d, hdc, p1⟩ ⟨_, hmc, p2.le⟩, ?_⟩
  rw [phys_kelvin, interpolate_inv hs (pre := []) (a := (-29, m)) (b := d) (suf := D') rfl p1 p2]
  have e : (m - d.2) ≠ 0 := by linarith
  have e3 : d.1 + (-29 - d.1) / (m - d.2) * (p - d.2) = 50 - 79 / 12 * (50 - t) := by
    rw [hp, hd]
    field_simp
    ring
  simp only [e3]
  exact ⟨trivial, by linarith⟩

/-- C47, proved part: from the lowest published rating of the class up to (not including) its largest
one, the temperature returned is one at which the class is rated for the pressure.  Missing: pressures
below the lowest published rating (false, `C47_violated`) and exactly the largest one. -/
theorem C47_safe_partial (hc : IsCurve material cls curve) (hx : IsBar u x p)
    (hlo : ∃ r ∈ curve, 0 < r.2 ∧ r.2 ≤ p) (hhi : ∃ r ∈ curve, p < r.2) :
    ∃ q q', getMaxTemperature u cls x (.str material) = .ok q ∧
      getMaxPressure u cls (.quantity q) (.str material) = .ok q' ∧
      q.unit = PUnit.kelvin ∧ p * 100000 ≤ q'.phys := by
  obtain ⟨tb, ht, i, hi7, hi, rfl⟩ := hc.table
  obtain ⟨m, D, Z, hs⟩ := curve_shape ht.1 hi7
  obtain ⟨hinc, hdec, hlen⟩ := hc.facts
  obtain ⟨r, hr, r0, hrp⟩ := hlo
  obtain ⟨r', hr', hrp'⟩ := hhi
  have hpm : p < m := hrp'.trans_le (hs.le ⟨hinc, hdec⟩ hr')
  have hrD : r ∈ D := by
    have hr2 := hr
    rw [hs.eq, List.mem_cons, List.mem_cons, List.mem_append] at hr2
    rcases hr2 with rfl | rfl | h | h
    · exact absurd hrp (not_le.mpr hpm)
    · exact absurd hrp (not_le.mpr hpm)
    · exact h
    · have := hs.zero r h; linarith
  obtain ⟨pre, a, b, suf, hE, h1, h2⟩ := sdec_segment hs.sdec hpm ⟨r, hrD, hrp⟩
  have hab : b.2 < a.2 := h1.trans_lt h2
  have hs0 : 0 ≤ (p - b.2) / (a.2 - b.2) := div_nonneg (by linarith) (by linarith)
  have hs1 : (p - b.2) / (a.2 - b.2) < 1 := by rw [div_lt_one (by linarith)]; linarith
  have eT : b.1 + (a.1 - b.1) / (a.2 - b.2) * (p - b.2) =
      b.1 + (a.1 - b.1) * ((p - b.2) / (a.2 - b.2)) := by ring
  have hval := interpolate_inv hs hE h1 h2
  rw [eT] at hval
  have ep : p = b.2 + (a.2 - b.2) * ((p - b.2) / (a.2 - b.2)) := by
    have : a.2 - b.2 ≠ 0 := by linarith
    field_simp
    ring
  set s := (p - b.2) / (a.2 - b.2) with hsdef
  -- the rating at the returned temperature
  have key : ∃ v, On (curveOf i tb.2.2) (b.1 + (a.1 - b.1) * s) v ∧ p ≤ v := by
    cases pre with
    | nil =>
      simp only [List.nil_append, List.cons.injEq] at hE
      obtain ⟨rfl, hD⟩ := hE
      obtain ⟨d, D', hD2, hd⟩ := hs.head
      rw [hD, List.cons.injEq] at hD2
      obtain ⟨rfl, rfl⟩ := hD2
      have hcv : curveOf i tb.2.2 = (-29, m) :: (38, m) :: b :: (suf ++ Z) := by
        rw [hs.eq, hD]; rfl
      simp only at hab ep ⊢
      by_cases hT : b.1 + (-29 - b.1) * s ≤ 38
      · refine ⟨m, ⟨[], (-29, m), (38, m), b :: (suf ++ Z), hcv, ?_, hT, by simp⟩, hpm.le⟩
        simp only; rw [hd]; nlinarith
      · refine ⟨_, ⟨[(-29, m)], (38, m), b, suf ++ Z, hcv, (not_le.mp hT).le, ?_, rfl⟩, ?_⟩
        · rw [hd]; nlinarith
        · simp only [hd]
          have : m + (b.2 - m) * ((50 + (-29 - 50) * s - 38) / (50 - 38)) =
              b.2 + (m - b.2) * (79 / 12 * s) := by ring
          rw [this]
          nlinarith [mul_nonneg (sub_nonneg.mpr hab.le) hs0]
    | cons e pre =>
      simp only [List.cons_append, List.cons.injEq] at hE
      obtain ⟨rfl, hD⟩ := hE
      have hcv : curveOf i tb.2.2 = ((-29, m) :: (38, m) :: pre) ++ a :: b :: (suf ++ Z) := by
        rw [hs.eq, hD]; simp
      have hab1 : a.1 < b.1 := by
        have h := hinc
        rw [hcv] at h
        generalize (-29, m) :: (38, m) :: pre = pp at h
        clear hcv
        induction pp with
        | nil => exact h.1
        | cons c pp ih => exact ih h.tail
      refine ⟨p, ⟨_, a, b, _, hcv, ?_, ?_, ?_⟩, le_rfl⟩
      · nlinarith
      · nlinarith
      · rw [ep]
        have : b.1 - a.1 ≠ 0 := by linarith
        field_simp
        ring
  obtain ⟨v, ho, hv⟩ := key
  have hT := (getMaxTemperature_eval hc hx).1 ⟨r, hr, hrp⟩ ⟨r', hr', hrp'.le⟩
  rw [hval] at hT
  exact ⟨_, _, hT, (getMaxPressure_eval hc (isDegC_kelvin _ _)).1 v ho, rfl,
    by rw [phys_pascal]; linarith⟩

/-- The part of C46 and C47 that is proved is not empty: class 150, 316, 14.8 bar (150 degC). -/
example : IsCurve "316" "150" (curveOf 0 Data.group22Rows) ∧
    (∃ r ∈ curveOf 0 Data.group22Rows, 0 < r.2 ∧ r.2 ≤ (14.8 : ℝ)) ∧
    (∃ r ∈ curveOf 0 Data.group22Rows, (14.8 : ℝ) < r.2) ∧
    (∃ r ∈ curveOf 0 Data.group22Rows, (150 : ℝ) ≤ r.1 ∧ 0 < r.2) := by
  refine ⟨⟨("316", "2.2", 200, 79, 28), by decide, rfl, ("2.2", Data.group22Cols, Data.group22Rows),
    by decide, rfl, 0, rfl, rfl⟩, ⟨(150, 14.8), ?_, by norm_num, by norm_num⟩,
    ⟨(-29, 19), ?_, by norm_num⟩, ⟨(150, 14.8), ?_, by norm_num, by norm_num⟩⟩ <;>
  norm_num [curveOf, Data.group22Rows, cellBar]

theorem c150_sorted : ∃ suf, ((intCurve 0 Data.group21Rows).map Prod.swap).insertionSort
      (fun a b : ℕ × ℤ => a.1 ≤ b.1) =
      [(0, 550), (0, 575), (0, 600), (0, 625), (0, 650), (0, 675), (0, 700), (0, 725), (0, 750),
       (0, 775), (0, 800)] ++ (0, 816) :: (14, 538) :: suf :=
  ⟨(((intCurve 0 Data.group21Rows).map Prod.swap).insertionSort
        (fun a b : ℕ × ℤ => a.1 ≤ b.1)).drop 13, by decide +kernel⟩

theorem inv_segment {cv : List (ℤ × ℕ)} {pre suf : List (ℕ × ℤ)} {a b : ℕ × ℤ} {x : ℝ}
    (hsort : (cv.map Prod.swap).insertionSort (fun a b : ℕ × ℤ => a.1 ≤ b.1) = pre ++ a :: b :: suf)
    (h1 : (a.1 : ℝ) / 10 ≤ x) (h2 : x < (b.1 : ℝ) / 10) :
    interpolate (x * 100000) (((cv.map toReal).map si).map Prod.swap) =
      a.2 + ((b.2 : ℝ) - a.2) / (b.1 / 10 - a.1 / 10) * (x - a.1 / 10) + 27315 / 100 := by
  have hasc := sortPts_asc (((cv.map toReal).map si).map Prod.swap)
  unfold interpolate
  rw [sorted_int, hsort] at hasc ⊢
  simp only [List.map_append, List.map_cons] at hasc ⊢
  rw [slinear_seg (x := x * 100000) _ hasc (by simp only [inv, toReal, Prod.fst_swap, Prod.snd_swap]; linarith)
    (by simp only [inv, toReal, Prod.fst_swap, Prod.snd_swap]; linarith)]
  simp only [inv, toReal, Prod.fst_swap, Prod.snd_swap]
  have hab : (b.1 : ℝ) / 10 - a.1 / 10 ≠ 0 := by linarith
  have hab' : (b.1 : ℝ) / 10 * 100000 - a.1 / 10 * 100000 ≠ 0 := by
    intro h; apply hab; linarith
  have e : (b.1 : ℝ) / 10 * 100000 - a.1 / 10 * 100000 = ((b.1 : ℝ) / 10 - a.1 / 10) * 100000 := by ring
  rw [e]
  field_simp
  ring

theorem c150_low (p0 : 0 < p) (p1 : p ≤ 1.3) :
    interpolate (p * 100000) (((curveOf 0 Data.group21Rows).map si).map Prod.swap) =
      816 - 278 / 1.4 * p + 27315 / 100 := by
  rw [curveOf_eq]
  obtain ⟨suf, hsort⟩ := c150_sorted
  have h2 : p < ((14 : ℕ) : ℝ) / 10 := by norm_num at p1 ⊢; linarith
  rw [inv_segment hsort (by simpa using p0.le) h2]
  norm_num
  ring

/-- C47 is false: for class 150 flanges of 304 and every pressure up to 1.3 bar, the temperature
returned (above 550 degC) is one at which the class has no rating at all. -/
theorem C47_violated (hx : IsBar u x p) (p0 : 0 < p) (p1 : p ≤ 1.3) :
    ∃ q q', getMaxTemperature u "150" x (.str "304") = .ok q ∧
      getMaxPressure u "150" (.quantity q) (.str "304") = .ok q' ∧ q'.phys = 0 ∧ 550 + 27315 / 100 < q.phys := by
  have hc : IsCurve "304" "150" (curveOf 0 Data.group21Rows) :=
    ⟨("304", "2.1", 200, 78, 28), by decide, rfl, _, List.mem_cons_self, rfl, 0, rfl, rfl⟩
  obtain ⟨hinc, hdec, hlen⟩ := hc.facts
  have hval := c150_low p0 p1
  have z1 : (816, 0) ∈ curveOf 0 Data.group21Rows := by
    norm_num [curveOf, Data.group21Rows, cellBar]
  have z0 : (550, 0) ∈ curveOf 0 Data.group21Rows := by
    norm_num [curveOf, Data.group21Rows, cellBar]
  have z2 : (-29, 19) ∈ curveOf 0 Data.group21Rows := by
    norm_num [curveOf, Data.group21Rows, cellBar]
  have hT := (getMaxTemperature_eval hc hx).1 ⟨_, z1, p0.le⟩ ⟨_, z2, by norm_num; linarith⟩
  rw [hval] at hT
  have t1 : 550 < 816 - 278 / 1.4 * p := by norm_num; linarith
  have t2 : 816 - 278 / 1.4 * p ≤ 816 := by norm_num; linarith
  obtain ⟨v, ho⟩ := On.exists hinc hlen z0 z1 t1.le t2
  have hv : v = 0 := by
    rw [ho.eq_npInterp hinc]
    apply le_antisymm
    · have h1 : npInterp (816 - 278 / 1.4 * p) (curveOf 0 Data.group21Rows) ≤
          npInterp 550 (curveOf 0 Data.group21Rows) := npInterp_antitone hinc hdec t1.le
      have h2 : npInterp 550 (curveOf 0 Data.group21Rows) = 0 := by
        obtain ⟨pre, suf, e⟩ := List.append_of_mem z0
        rw [e] at hinc ⊢
        exact npInterp_knot pre hinc
      rw [h2] at h1; exact h1
    · apply npInterp_ge hinc
      · intro hn; rw [hn] at hlen; simp at hlen
      · intro r hr
        obtain ⟨a, -, rfl⟩ := List.mem_map.mp hr
        simp only [cellBar]; positivity
  subst hv
  exact ⟨_, _, hT, (getMaxPressure_eval hc (isDegC_kelvin _ _)).1 0 ho, by rw [phys_pascal]; ring,
    by rw [phys_kelvin]; linarith⟩

theorem low_end : ∀ tb ∈ ratingTables, ∀ i < 7, (∃ a ∈ intCurve i tb.2.2, a.2 = 0) →
    (((intCurve i tb.2.2).map Prod.swap).insertionSort (fun a b : ℕ × ℤ => a.1 ≤ b.1)).drop 11 =
      (0, 816) :: (14, 538) ::
        (((intCurve i tb.2.2).map Prod.swap).insertionSort (fun a b : ℕ × ℤ => a.1 ≤ b.1)).drop 13 ∧
    (intCurve i tb.2.2).drop 16 = (538, 14) :: (550, 0) :: (intCurve i tb.2.2).drop 18 ∧
    (816, 0) ∈ intCurve i tb.2.2 := by
  decide +kernel

/-- C47, exactly: strictly between 0 bar and the largest rating of the class, the temperature returned is one at which
the class is rated for the pressure if and only if the pressure reaches the lowest published rating. -/
theorem C47_safe_iff (hc : IsCurve material cls curve) (hx : IsBar u x p) (p0 : 0 < p)
    (hlo : ∃ r ∈ curve, r.2 ≤ p) (hhi : ∃ r ∈ curve, p < r.2) :
    ∃ q q', getMaxTemperature u cls x (.str material) = .ok q ∧
      getMaxPressure u cls (.quantity q) (.str material) = .ok q' ∧
      (p * 100000 ≤ q'.phys ↔ ∃ r ∈ curve, 0 < r.2 ∧ r.2 ≤ p) := by
  by_cases hr : ∃ r ∈ curve, 0 < r.2 ∧ r.2 ≤ p
  · obtain ⟨q, q', h1, h2, -, h3⟩ := C47_safe_partial hc hx hr hhi
    exact ⟨q, q', h1, h2, fun _ => hr, fun _ => h3⟩
  · obtain ⟨tb, ht, i, hi7, hi, rfl⟩ := hc.table
    obtain ⟨hinc, hdec, hlen⟩ := hc.facts
    obtain ⟨r, hrm, hrp⟩ := hlo
    have hr0 : r.2 ≤ 0 := by
      by_contra h; exact hr ⟨r, hrm, not_le.mp h, hrp⟩
    have hz : ∃ a ∈ intCurve i tb.2.2, a.2 = 0 := by
      rw [curveOf_eq] at hrm
      obtain ⟨a, ha, rfl⟩ := List.mem_map.mp hrm
      refine ⟨a, ha, ?_⟩
      simp only [toReal] at hr0
      have : (a.2 : ℝ) ≤ 0 := by linarith
      exact_mod_cast le_antisymm this (by positivity)
    obtain ⟨k1, k2, k3⟩ := low_end tb ht.1 i hi7 hz
    have hcv : curveOf i tb.2.2 = ((intCurve i tb.2.2).take 16).map toReal ++ (538, 1.4) :: (550, 0) ::
        ((intCurve i tb.2.2).drop 18).map toReal := by
      conv_lhs => rw [curveOf_eq, ← List.take_append_drop 16 (intCurve i tb.2.2), k2]
      simp only [List.map_append, List.map_cons, toReal]
      norm_num
    have m1 : ((538, 1.4) : ℝ × ℝ) ∈ curveOf i tb.2.2 := by rw [hcv]; simp
    have m2 : ((550, 0) : ℝ × ℝ) ∈ curveOf i tb.2.2 := by rw [hcv]; simp
    have m3 : ((816, 0) : ℝ × ℝ) ∈ curveOf i tb.2.2 := by
      rw [curveOf_eq]
      exact List.mem_map.mpr ⟨_, k3, by norm_num [toReal]⟩
    have p1 : p < 1.4 := by
      by_contra h
      exact hr ⟨_, m1, by norm_num, not_lt.mp h⟩
    have hval : interpolate (p * 100000) (((curveOf i tb.2.2).map si).map Prod.swap) =
        816 - 278 / 1.4 * p + 27315 / 100 := by
      rw [curveOf_eq]
      have hsort := List.take_append_drop 11
        (((intCurve i tb.2.2).map Prod.swap).insertionSort (fun a b : ℕ × ℤ => a.1 ≤ b.1))
      rw [k1] at hsort
      rw [inv_segment hsort.symm (by simpa using p0.le) (by norm_num at p1 ⊢; linarith)]
      norm_num
      ring
    obtain ⟨r', hrm', hrp'⟩ := hhi
    have hT := (getMaxTemperature_eval hc hx).1 ⟨_, hrm, hrp⟩ ⟨_, hrm', hrp'.le⟩
    rw [hval] at hT
    have t1 : 538 < 816 - 278 / 1.4 * p := by norm_num at p1 ⊢; linarith
    have t2 : 816 - 278 / 1.4 * p ≤ 816 := by norm_num; linarith
    obtain ⟨v, ho⟩ := On.exists hinc hlen m1 m3 t1.le t2
    have hv : v < p := by
      by_cases h550 : 816 - 278 / 1.4 * p ≤ 550
      · have ho' : On (curveOf i tb.2.2) (816 - 278 / 1.4 * p) _ := ⟨_, _, _, _, hcv, t1.le, h550, rfl⟩
        rw [ho.unique hinc ho']
        norm_num at p1 ⊢
        linarith
      · rw [ho.eq_npInterp hinc]
        have h1 : npInterp (816 - 278 / 1.4 * p) (curveOf i tb.2.2) ≤ npInterp 550 (curveOf i tb.2.2) :=
          npInterp_antitone hinc hdec (not_le.mp h550).le
        have h2 : npInterp 550 (curveOf i tb.2.2) = 0 := by
          obtain ⟨pre, suf, e⟩ := List.append_of_mem m2
          rw [e] at hinc ⊢
          exact npInterp_knot pre hinc
        linarith
    refine ⟨_, _, hT, (getMaxPressure_eval hc (isDegC_kelvin _ _)).1 v ho, ?_⟩
    rw [phys_pascal]
    exact ⟨fun h => absurd h (by linarith), fun h => absurd h hr⟩

/-- C47: pressures outside the range of the class's ratings raise ValueError. -/
theorem C47_range (hc : IsCurve material cls curve) (hx : IsBar u x p)
    (h : (∀ a ∈ curve, p < a.2) ∨ ∀ a ∈ curve, a.2 < p) :
    IsValueError (getMaxTemperature u cls x (.str material)) :=
  ⟨_, (getMaxTemperature_eval hc hx).2 h⟩

/-! ### C48: the loader -/

/-- A cell after loading: numbers are kept, everything else becomes 0. -/
inductive Filled : Option ℝ → ℝ → Prop
  | num (x : ℝ) : Filled (some x) x
  | missing : Filled none 0

/-- The three groups and their files. -/
def groupFiles : List (String × String) :=
  [("2.1", "ASME_B16_5_flange_ratings_group_2_1.csv"),
   ("2.2", "ASME_B16_5_flange_ratings_group_2_2.csv"),
   ("2.3", "ASME_B16_5_flange_ratings_group_2_3.csv")]

theorem filled_getD (o : Option ℝ) : Filled o (o.getD 0) := by
  cases o with
  | none => exact .missing
  | some x => exact .num x

theorem fileName_eq : fileName "2.1" = "ASME_B16_5_flange_ratings_group_2_1.csv" ∧
    fileName "2.2" = "ASME_B16_5_flange_ratings_group_2_2.csv" ∧
    fileName "2.3" = "ASME_B16_5_flange_ratings_group_2_3.csv" := by decide +kernel

/-- Content of a loaded file: same columns; every cell is `Filled`. -/
def LoadedFrom (raw : Raw) (f : Frame) : Prop :=
  f.cols = raw.cols ∧
    List.Forall₂ (fun r s => Filled r.1 s.1 ∧ List.Forall₂ Filled r.2 s.2) raw.rows f.rows

theorem loadFrame_cases (raw : Raw) :
    ((∀ r ∈ raw.rows, ∀ p ∈ r.2, ∀ v, p = some v → 0 ≤ v) →
      ∃ f, loadFrame raw = .ok f ∧ LoadedFrom raw f) ∧
    ((∃ r ∈ raw.rows, ∃ v, some v ∈ r.2 ∧ v < 0) →
      loadFrame raw = .error (.valueError "\nPressure less than zero.")) := by
  constructor
  · intro h
    refine ⟨⟨raw.cols, raw.rows.map fun r => (r.1.getD 0, r.2.map (·.getD 0))⟩, ?_, rfl, ?_⟩
    · unfold loadFrame
      simp only
      rw [if_pos]
      intro r hr p hp
      obtain ⟨r', hr', rfl⟩ := List.mem_map.mp hr
      obtain ⟨o, ho, rfl⟩ := List.mem_map.mp hp
      cases o with
      | none => exact le_rfl
      | some v => exact h r' hr' _ ho v rfl
    · simp only
      rw [List.forall₂_map_right_iff]
      apply List.forall₂_same.mpr
      intro r _
      refine ⟨filled_getD _, ?_⟩
      rw [List.forall₂_map_right_iff]
      exact List.forall₂_same.mpr fun o _ => filled_getD o
  · rintro ⟨r, hr, v, hv, hneg⟩
    unfold loadFrame
    simp only
    rw [if_neg]
    intro hall
    have := hall _ (List.mem_map.mpr ⟨r, hr, rfl⟩) v (List.mem_map.mpr ⟨some v, hv, rfl⟩)
    linarith

/-- C48: if all three files exist and no pressure cell is negative, loading succeeds, every numeric cell
is unchanged and every other cell is 0. -/
theorem C48_loads (disk : String → Option Raw)
    (h : ∀ g ∈ groupFiles, ∃ raw, disk g.2 = some raw ∧
      ∀ r ∈ raw.rows, ∀ p ∈ r.2, ∀ v, p = some v → 0 ≤ v) :
    ∃ fs, loadAll disk = .ok fs ∧ fs.map (·.1) = ["2.1", "2.2", "2.3"] ∧
      ∀ g ∈ groupFiles, ∀ raw, disk g.2 = some raw → ∃ f, fs.lookup g.1 = some f ∧ LoadedFrom raw f := by
  obtain ⟨f1, f2, f3⟩ := fileName_eq
  obtain ⟨r1, d1, n1⟩ := h ("2.1", "ASME_B16_5_flange_ratings_group_2_1.csv") (by decide +kernel)
  obtain ⟨r2, d2, n2⟩ := h ("2.2", "ASME_B16_5_flange_ratings_group_2_2.csv") (by decide +kernel)
  obtain ⟨r3, d3, n3⟩ := h ("2.3", "ASME_B16_5_flange_ratings_group_2_3.csv") (by decide +kernel)
  obtain ⟨a1, e1, l1⟩ := (loadFrame_cases r1).1 n1
  obtain ⟨a2, e2, l2⟩ := (loadFrame_cases r2).1 n2
  obtain ⟨a3, e3, l3⟩ := (loadFrame_cases r3).1 n3
  simp only at d1 d2 d3
  refine ⟨[("2.1", a1), ("2.2", a2), ("2.3", a3)], ?_, rfl, ?_⟩
  · simp only [loadAll, forEach, loadGroup, f1, f2, f3, d1, d2, d3, e1, e2, e3, ok_bind]
  · intro g hg raw hraw
    simp only [groupFiles, List.mem_cons, List.not_mem_nil, or_false] at hg
    rcases hg with rfl | rfl | rfl
    · simp only [d1, Option.some.injEq] at hraw
      subst hraw
      exact ⟨a1, rfl, l1⟩
    · simp only [d2, Option.some.injEq] at hraw
      subst hraw
      exact ⟨a2, rfl, l2⟩
    · simp only [d3, Option.some.injEq] at hraw
      subst hraw
      exact ⟨a3, rfl, l3⟩

theorem forEach_error {α β : Type} {f : α → Py β} {l : List α}
    (h : ∃ a ∈ l, Raises (f a)) (hv : ∀ a ∈ l, ∀ e, f a = .error e → ∃ msg, e = .valueError msg) :
    IsValueError (forEach f l) := by
  induction l with
  | nil => simp at h
  | cons a l ih =>
    simp only [forEach]
    cases ha : f a with
    | error e =>
      obtain ⟨m, rfl⟩ := hv a (by simp) e ha
      exact ⟨m, rfl⟩
    | ok b =>
      obtain ⟨c, hc, he⟩ := h
      have hc' : c ∈ l := by
        rcases List.mem_cons.mp hc with rfl | h
        · obtain ⟨e, he⟩ := he; rw [ha] at he; simp at he
        · exact h
      obtain ⟨m, e⟩ := ih ⟨c, hc', he⟩ (fun x hx => hv x (by simp [hx]))
      exact ⟨m, by simp only [ok_bind, e, err_bind]⟩

/-- C48: if all three files exist and some pressure cell in one of them is negative, ValueError; and if
a file is missing, loading raises. -/
theorem C48_rejects (disk : String → Option Raw) :
    ((∀ g ∈ groupFiles, ∃ raw, disk g.2 = some raw) →
      (∃ g ∈ groupFiles, ∃ raw, disk g.2 = some raw ∧ ∃ r ∈ raw.rows, ∃ v, some v ∈ r.2 ∧ v < 0) →
      IsValueError (loadAll disk)) ∧
    ((∃ g ∈ groupFiles, disk g.2 = none) → Raises (loadAll disk)) := by
  have hgf : ∀ g ∈ groupFiles, fileName g.1 = g.2 := by decide +kernel
  have hg1 : ∀ g ∈ groupFiles, g.1 ∈ ["2.1", "2.2", "2.3"] := by decide +kernel
  have hmem : ∀ a ∈ ["2.1", "2.2", "2.3"], ∃ g ∈ groupFiles, g.1 = a := by decide +kernel
  constructor
  · rintro hall ⟨g, hg, raw, hraw, hneg⟩
    apply forEach_error
    · refine ⟨g.1, ?_, .valueError "\nPressure less than zero.", ?_⟩
      · exact hg1 g hg
      · simp only [loadGroup, hgf g hg, hraw, (loadFrame_cases raw).2 hneg, err_bind]
    · intro a ha e he
      obtain ⟨g', hg', rfl⟩ := hmem a ha
      obtain ⟨raw', hraw'⟩ := hall g' hg'
      simp only [loadGroup, hgf g' hg', hraw'] at he
      unfold loadFrame at he
      simp only at he
      split at he
      · simp at he
      · simp only [err_bind, Except.error.injEq] at he
        exact ⟨_, he.symm⟩
  · rintro ⟨g, hg, hnone⟩
    cases hres : loadAll disk with
    | error e => exact ⟨e, rfl⟩
    | ok fs =>
      exfalso
      simp only [loadAll, forEach, bind_eq_ok] at hres
      obtain ⟨b1, h1, -, ⟨b2, h2, -, ⟨b3, h3, -⟩, -⟩, -⟩ := hres
      simp only [groupFiles, List.mem_cons, List.not_mem_nil, or_false] at hg
      obtain ⟨f1, f2, f3⟩ := fileName_eq
      rcases hg with rfl | rfl | rfl
      · simp only at hnone; simp [loadGroup, f1, hnone] at h1
      · simp only at hnone; simp [loadGroup, f2, hnone] at h2
      · simp only at hnone; simp [loadGroup, f3, hnone] at h3

/-- Hypotheses of C48 are met by the shipped files (with empty cells), and a file with a negative cell
exists. -/
example : (∀ g ∈ groupFiles, ∃ raw, shipped g.2 = some raw) ∧
    (∃ raw : Raw, ∃ r ∈ raw.rows, ∃ v, some v ∈ r.2 ∧ v < 0) := by
  constructor
  · intro g hg
    simp only [groupFiles, List.mem_cons, List.not_mem_nil, or_false] at hg
    rcases hg with rfl | rfl | rfl
    · exact ⟨_, if_pos rfl⟩
    · exact ⟨_, by simp only [shipped]; rw [if_neg (by decide +kernel), if_pos trivial]⟩
    · exact ⟨_, by simp only [shipped]; rw [if_neg (by decide +kernel), if_neg (by decide +kernel), if_pos trivial]⟩
  · exact ⟨⟨["900"], [(some 10, [some (-10)])]⟩, _, List.mem_singleton.mpr rfl, -10, by simp, by norm_num⟩

/-! ### C49: unrated classes -/

/-- C49: where the rating table has an empty cell for a class, `get_class` never returns that class for
a positive pressure at that temperature or any higher one. -/
theorem C49_unrated_never_selected
    {tb : String × List String × List (Int × List (Option Nat))} {i : ℕ}
    {r : Int × List (Option Nat)} (ht : tb ∈ ratingTables)
    (hm : ∃ row ∈ Data.materialRows, row.1 = material ∧ tb.1 = row.2.1)
    (hi : tb.2.1[i]? = some cls) (hr : r ∈ tb.2.2) (hempty : r.2[i]? = some none)
    (hx : IsBar reg x p) (hy : IsDegC reg y t) (p0 : 0 < p) (hT : (r.1 : ℝ) ≤ t) :
    getClass u reg x y (.str material) ≠ .ok cls := by
  intro h
  have htb : IsTable material tb := ⟨ht, hm⟩
  obtain ⟨n, cv, v, -, hc, ho, hpv, -⟩ := C42_smallest_sufficient h hx hy
  obtain ⟨j, hj7, hj, rfl⟩ := curve_eq htb hc
  obtain ⟨hinc, hdec, -⟩ := hc.facts
  have hn : ∃ n, (cls, n) ∈ classes := by
    have hcm := List.mem_of_getElem? hi
    rw [table_cols tb ht] at hcm
    obtain ⟨a, ha, rfl⟩ := List.mem_map.mp hcm
    exact ⟨a.2, ha⟩
  obtain ⟨n, hn⟩ := hn
  obtain rfl : i = j := (class_order ht hi hj hn hn).2.mp rfl
  have hmem : ((r.1 : ℝ), (0 : ℝ)) ∈ curveOf i tb.2.2 :=
    List.mem_map.mpr ⟨r, hr, by simp [cellBar, hempty]⟩
  have h1 : npInterp t (curveOf i tb.2.2) ≤ npInterp r.1 (curveOf i tb.2.2) :=
    npInterp_antitone hinc hdec hT
  have h2 : npInterp r.1 (curveOf i tb.2.2) = 0 := by
    obtain ⟨pre, suf, e⟩ := List.append_of_mem hmem
    rw [e] at hinc ⊢
    exact npInterp_knot pre hinc
  rw [h2, ← ho.eq_npInterp hinc] at h1
  linarith

/-- The case of C49 exists: class 150 has no rating for group 2.1 at 550 degC. -/
example : ∃ tb ∈ ratingTables, ∃ r ∈ tb.2.2, tb.2.1[0]? = some "150" ∧ r.1 = 550 ∧
    r.2[0]? = some none := by decide +kernel

end Pypbomb.Flange
