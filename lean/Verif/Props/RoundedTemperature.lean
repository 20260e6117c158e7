/-
Rounding in `Flange.get_max_temperature` (C118): what floating-point arithmetic does to the temperature limit at a
pressure.
-/
import Verif.Props.RoundedFlange

namespace Pypbomb.Flange
open Quantity

variable {fp : FP} {ε : ℝ} {κ : ℕ} {u reg : Registry} {material cls c : String} {curve : List (ℝ × ℝ)} {x y : QIn}
  {t p : ℝ}

/-! ### Ratings -/

/-- The ratings of the tables: tenths of a bar, at most 450 bar. -/
theorem table_ratings : ∀ tb ∈ ratingTables, ∀ r ∈ tb.2.2, ∀ i < 7, (r.2[i]?).join.getD 0 ≤ 4500 := by decide +kernel

theorem curve_rating {tb : String × List String × List (Int × List (Option Nat))} (ht : tb ∈ ratingTables) {i : ℕ}
    (hi : i < 7) {a : ℝ × ℝ} (ha : a ∈ curveOf i tb.2.2) : 0 ≤ a.2 ∧ a.2 ≤ 450 ∧ ∃ n : ℕ, a.2 = n / 10 := by
  obtain ⟨r, hr, rfl⟩ := List.mem_map.mp ha
  have h := table_ratings tb ht r hr i hi
  have h : (((r.2[i]?).join.getD 0 : ℕ) : ℝ) ≤ 4500 := by exact_mod_cast h
  simp only [cellBar]
  exact ⟨by positivity, by linarith, _, rfl⟩

/-- A value within `n ≤ κ + 2` roundings of a pressure up to 500 bar. -/
theorem near_err (H : fp.Accurate ε κ) (hu : (κ + 10) * ε ≤ 1 / 100000) {n : ℕ} (hn : n ≤ κ + 2) {p z : ℝ} (p0 : 0 ≤ p)
    (h : Near ε n (p * 100000) z) : |z - p * 100000| ≤ 10001 / 10000 * ((κ + 2) * ε) * (p * 100000) := by
  have e0 := H.nonneg
  have κ0 : (0 : ℝ) ≤ κ := Nat.cast_nonneg κ
  have h2 := Near.mono e0 H.lt_one hn h
  have hs : ((κ + 2 : ℕ) : ℝ) * ε ≤ 1 / 100000 := by push_cast; nlinarith
  have b := Near.bound e0 H.lt_one (by linarith) h2
  rw [abs_of_nonneg (show 0 ≤ p * 100000 by positivity)] at b
  refine b.trans (mul_le_mul_of_nonneg_right ?_ (by positivity))
  push_cast at hs ⊢
  rw [div_le_iff₀ (by linarith)]
  have : 0 ≤ ((κ : ℝ) + 2) * ε := by positivity
  nlinarith

theorem rate_err (H : fp.Accurate ε κ) (hu : (κ + 10) * ε ≤ 1 / 100000) {p : ℝ} (p0 : 0 ≤ p) (p1 : p ≤ 450) :
    |rate fp p - p * 100000| ≤ 451 * ((κ + 2) * ε) * 100000 := by
  have e0 := H.nonneg
  refine (near_err H hu le_rfl p0 (rate_near H p)).trans ?_
  have : 0 ≤ ((κ : ℝ) + 2) * ε := by positivity
  nlinarith

theorem rate_le_iff (H : fp.Accurate ε κ) (M : fp.Monotone) (hu : (κ + 10) * ε ≤ 1 / 100000) {a b : ℝ} (a0 : 0 ≤ a)
    (a1 : a ≤ 450) (b0 : 0 ≤ b) (b1 : b ≤ 450) (ha : ∃ n : ℕ, a = n / 10) (hb : ∃ n : ℕ, b = n / 10) :
    a ≤ b ↔ rate fp a ≤ rate fp b := by
  have e0 := H.nonneg
  constructor
  · intro h
    exact baseR_mono M rfl (M.mono _ _ h)
  · intro h
    by_contra hlt
    obtain ⟨n, rfl⟩ := ha
    obtain ⟨m, rfl⟩ := hb
    have h1 : (m : ℝ) < n := by linarith
    have h2 : (m : ℝ) + 1 ≤ n := by exact_mod_cast h1
    have r1 := abs_le.mp (rate_err H hu a0 a1)
    have r2 := abs_le.mp (rate_err H hu b0 b1)
    have : ((κ : ℝ) + 2) * ε ≤ 1 / 100000 := by nlinarith
    linarith [r1.1, r2.2]

/-! ### Which segment is used -/

/-- On points with weakly increasing abscissas the value at `x` is that of the segment around `x`. -/
theorem slinearR_pick {α : Type} {k g : α → ℝ} {x : ℝ} {pre suf : List α} {c d : α}
    (h : (pre ++ c :: d :: suf).Pairwise fun a b => k a ≤ k b) (h1 : k c ≤ x) (h2 : x < k d) :
    slinearR fp x ((pre ++ c :: d :: suf).map fun a => (k a, g a)) = segR fp x (k c, g c) (k d, g d) := by
  induction pre with
  | nil =>
    simp only [List.nil_append, List.map_cons, slinearR]
    rw [if_pos (.inl h2), if_neg (h1.trans_lt h2).ne]
  | cons e pre ih =>
    rw [← ih h.of_cons]
    cases pre with
    | nil =>
      simp only [List.cons_append, List.nil_append, List.map_cons, slinearR]
      rw [if_neg]
      rw [not_or, not_lt]
      exact ⟨h1, by simp⟩
    | cons f pre =>
      have hf : k f ≤ k c := List.rel_of_pairwise_cons h.of_cons (by simp)
      simp only [List.cons_append, List.map_cons, slinearR]
      rw [if_neg]
      rw [not_or, not_lt]
      exact ⟨hf.trans h1, by simp⟩

theorem exists_pick {α : Type} {k : α → ℝ} {x : ℝ} {l : List α} (h : l.Pairwise fun a b => k a ≤ k b) {a b : α}
    (ha : a ∈ l) (h1 : k a ≤ x) (hb : b ∈ l) (h2 : x < k b) :
    ∃ pre c d suf, l = pre ++ c :: d :: suf ∧ k c ≤ x ∧ x < k d := by
  induction l generalizing a with
  | nil => simp at ha
  | cons e l ih =>
    have he : k e ≤ x := by
      rcases List.mem_cons.mp ha with rfl | ha
      · exact h1
      · exact (List.rel_of_pairwise_cons h ha).trans h1
    have hbl : b ∈ l := by
      rcases List.mem_cons.mp hb with rfl | hb
      · linarith
      · exact hb
    cases l with
    | nil => simp at hbl
    | cons d l =>
      by_cases hd : x < k d
      · exact ⟨[], e, d, l, rfl, he, hd⟩
      · obtain ⟨pre, c, d', suf, e1, e2, e3⟩ := ih h.of_cons List.mem_cons_self (not_lt.mp hd) hbl
        exact ⟨e :: pre, c, d', suf, by rw [e1]; rfl, e2, e3⟩

/-- The curve in the order of its ratings. -/
noncomputable def byRating (l : List (ℝ × ℝ)) : List (ℝ × ℝ) := l.insertionSort fun a b => a.2 ≤ b.2

theorem byRating_sorted (l : List (ℝ × ℝ)) : (byRating l).Pairwise fun a b => a.2 ≤ b.2 :=
  haveI : Std.Total (fun a b : ℝ × ℝ => a.2 ≤ b.2) := ⟨fun _ _ => le_total _ _⟩
  haveI : IsTrans (ℝ × ℝ) (fun a b : ℝ × ℝ => a.2 ≤ b.2) := ⟨fun _ _ _ h h' => le_trans h h'⟩
  List.pairwise_insertionSort _ _

theorem mem_byRating {l : List (ℝ × ℝ)} {a : ℝ × ℝ} : a ∈ byRating l ↔ a ∈ l := List.mem_insertionSort _

/-- Sorting commutes with an order-preserving change of the ratings. -/
theorem sortPts_map {l : List (ℝ × ℝ)} {k g : ℝ × ℝ → ℝ} (h : ∀ a ∈ l, ∀ b ∈ l, a.2 ≤ b.2 ↔ k a ≤ k b) :
    sortPts (l.map fun a => (k a, g a)) = (byRating l).map fun a => (k a, g a) := by
  unfold sortPts byRating
  exact (List.map_insertionSort (r := fun a b : ℝ × ℝ => a.2 ≤ b.2) (s := fun a b : ℝ × ℝ => a.1 ≤ b.1) _ _ h).symm

/-! ### C118 -/

/-- How far the pressure may seem to move, in bar. -/
noncomputable def pshift (ε : ℝ) (κ : ℕ) : ℝ := 910 * (κ + 2) * ε

/-- How far the temperature limit may be off, in kelvin. -/
noncomputable def tshift (ε : ℝ) (κ : ℕ) : ℝ := (2040 * κ + 12000) * ε

/-- `get_max_temperature` after the lookups. -/
theorem getMaxTemperatureR_eval {tb : String × List String × List (Int × List (Option Nat))} (ht : IsTable material tb)
    {i : ℕ} (hi : tb.2.1[i]? = some cls) {q : Quantity} (e : parseQ x u = .ok q) :
    getMaxTemperatureR fp u cls x (.str material) = (do
      checkRangeR fp q (seriesMin ((curveOf i tb.2.2).map fun a => fp.rnd a.2))
        (seriesMax ((curveOf i tb.2.2).map fun a => fp.rnd a.2)) PUnit.bar u.id "Pressure out of range."
      .ok ⟨interpolateR fp (q.baseR fp) ((curveOf i tb.2.2).map fun a => (rate fp a.2, knot fp a.1)), PUnit.kelvin,
        outReg u x⟩) := by
  obtain ⟨hm, hne⟩ := class_ne_temperature ht.1 hi
  have hck : checkClass cls (tb.1, roundFrame fp (frameOf tb.2)) = .ok () := by
    unfold checkClass
    rw [if_pos]
    exact List.mem_cons_of_mem _ hm
  simp only [getMaxTemperatureR, withLimitsR_eq, lookupGroupR_eq ht, ok_bind, hck, e, if_neg hne, colBarR_eq ht.1 hi,
    curveSIR_eq ht.1 hi, List.map_map, Function.comp_def, Prod.swap_prod_mk]

/-- The range check of the pressure. -/
theorem pressRangeR (M : fp.Monotone) {l : List (ℝ × ℝ)} (hne : l ≠ []) {q : Quantity} {r : ℕ} {msg : String}
    (hr : q.reg = r) (hd : q.unit.dim = Dim.pressure) :
    (checkRangeR fp q (seriesMin (l.map fun a => fp.rnd a.2)) (seriesMax (l.map fun a => fp.rnd a.2)) PUnit.bar r msg =
        .ok () ∧
      (∃ a ∈ l, rate fp a.2 ≤ q.baseR fp) ∧ ∃ b ∈ l, q.baseR fp ≤ rate fp b.2) ∨
    (checkRangeR fp q (seriesMin (l.map fun a => fp.rnd a.2)) (seriesMax (l.map fun a => fp.rnd a.2)) PUnit.bar r msg =
        .error (.valueError msg) ∧
      ((∀ a ∈ l, q.baseR fp ≤ rate fp a.2) ∨ ∀ b ∈ l, rate fp b.2 ≤ q.baseR fp)) := by
  have hne : (l.map fun a => fp.rnd a.2) ≠ [] := by
    intro h
    exact hne (List.map_eq_nil_iff.mp h)
  rcases checkRangeR_spec M (q := q) (w := PUnit.bar) (r := r) (msg := msg) hne hr hd with ⟨h, h1, h2⟩ | ⟨h, h1⟩
  · obtain ⟨a, ha0, ha'⟩ := h1
    obtain ⟨b, hb0, hb'⟩ := h2
    obtain ⟨a, ha, rfl⟩ := List.mem_map.mp ha0
    obtain ⟨b, hb, rfl⟩ := List.mem_map.mp hb0
    exact .inl ⟨h, ⟨a, ha, ha'⟩, b, hb, hb'⟩
  · refine .inr ⟨h, ?_⟩
    rcases h1 with h1 | h1
    · exact .inl fun a ha => h1 _ (List.mem_map.mpr ⟨a, ha, rfl⟩)
    · exact .inr fun a ha => h1 _ (List.mem_map.mpr ⟨a, ha, rfl⟩)

theorem curve_ne_nil {tb : String × List String × List (Int × List (Option Nat))} (ht : tb ∈ ratingTables) {i : ℕ}
    (hi : i < 7) : curveOf i tb.2.2 ≠ [] := by
  intro h
  have := (curve_facts ht hi).2.2
  rw [h] at this; simp at this

/-- The computed pressure compared with a computed rating, for pressures of at most 1000 bar. -/
theorem press_err (H : fp.Accurate ε κ) (hu : (κ + 10) * ε ≤ 1 / 100000) {q : Quantity} (ho : q.unit.offset = 0)
    (hp : q.phys = p * 100000) (p0 : 0 ≤ p) :
    |q.baseR fp - p * 100000| ≤ 10001 / 10000 * ((κ + 2) * ε) * (p * 100000) :=
  near_err H hu (by omega) p0 (pressure_near H ho hp)

theorem press_nonneg (H : fp.Accurate ε κ) {q : Quantity} (ho : q.unit.offset = 0)
    (hp : q.phys = p * 100000) (h : 0 ≤ q.baseR fp) : 0 ≤ p := by
  obtain ⟨θ, a, -, e⟩ := pressure_near H ho hp
  by_contra hneg
  have := mul_neg_of_neg_of_pos (show p * 100000 < 0 by linarith [not_le.mp hneg])
    (Near.theta_pos H.nonneg H.lt_one a)
  rw [← e] at this
  linarith

theorem rate_nonneg (H : fp.Accurate ε κ) {p : ℝ} (p0 : 0 ≤ p) : 0 ≤ rate fp p :=
  Near.nonneg H.nonneg H.lt_one (by positivity) (rate_near H p)

/-- The error of the computed temperature between two rows. -/
theorem temp_err (H : fp.Accurate ε κ) (hu : (κ + 10) * ε ≤ 1 / 100000) {X A B a b : ℝ} (hB : X ≤ B) (hA : A ≤ X)
    (hpos : 0 < B - A) (a0 : -29 ≤ a) (a1 : a ≤ 816) (b0 : -29 ≤ b) (b1 : b ≤ 816) :
    |segR fp X (A, knot fp a) (B, knot fp b) - (a + 27315 / 100 + (X - A) / (B - A) * (b - a))| ≤ tshift ε κ := by
  have e0 := H.nonneg
  have κ0 : (0 : ℝ) ≤ κ := Nat.cast_nonneg κ
  have ke : 0 ≤ κ * ε := mul_nonneg κ0 e0
  have kc := knot_err H hu a0 a1
  have kd := knot_err H hu b0 b1
  have big : 2040 * (κ * ε) + 5220 * ε ≤ 2 / 5 := by nlinarith
  have kc' := abs_le.mp kc
  have kd' := abs_le.mp kd
  have near := segR_near H (n := 0) (a := (A, knot fp a)) (b := (B, knot fp b)) (sub_pos.mp hpos) hA hB
    (show 0 ≤ knot fp a by linarith [kc'.1]) (show 0 ≤ knot fp b by linarith [kd'.1]) (Near.refl _ _) (Near.refl _ _)
  simp only at near
  have s0 : 0 ≤ (X - A) / (B - A) := div_nonneg (by linarith) hpos.le
  have s1 : (X - A) / (B - A) ≤ 1 := (div_le_one hpos).mpr (by linarith)
  generalize (X - A) / (B - A) = s at *
  generalize segR fp X (A, knot fp a) (B, knot fp b) = S at *
  generalize knot fp a = C at *
  generalize knot fp b = D at *
  have e6 : 6 * ε ≤ 1 / 100000 := by nlinarith
  have nb := Near.bound (n := 6) e0 H.lt_one (by push_cast; linarith) near
  have K0 : 0 ≤ C + (D - C) * s := by nlinarith [kc'.1, kd'.1]
  have K1 : C + (D - C) * s ≤ 1090 := by nlinarith [kc'.2, kd'.2]
  rw [abs_of_nonneg K0] at nb
  have nb2 : ((6 : ℕ) : ℝ) * ε / (1 - ((6 : ℕ) : ℝ) * ε) ≤ 61 / 10 * ε := by
    push_cast
    rw [div_le_iff₀ (by linarith)]
    nlinarith
  have nb3 := nb.trans ((mul_le_mul nb2 K1 K0 (by linarith)))
  have e9 : C + (D - C) * s - (a + 27315 / 100 + s * (b - a)) =
      (1 - s) * (C - (a + 27315 / 100)) + s * (D - (b + 27315 / 100)) := by ring
  have m1 : |(1 - s) * (C - (a + 27315 / 100))| ≤ (1 - s) * (2040 * (κ * ε) + 5220 * ε) := by
    rw [abs_mul, abs_of_nonneg (by linarith)]
    exact mul_le_mul_of_nonneg_left kc (by linarith)
  have m2 : |s * (D - (b + 27315 / 100))| ≤ s * (2040 * (κ * ε) + 5220 * ε) := by
    rw [abs_mul, abs_of_nonneg s0]
    exact mul_le_mul_of_nonneg_left kd s0
  have m3 := (abs_add_le _ _).trans (add_le_add m1 m2)
  rw [← e9] at m3
  have m4 := abs_add_le (S - (C + (D - C) * s)) (C + (D - C) * s - (a + 27315 / 100 + s * (b - a)))
  rw [sub_add_sub_cancel] at m4
  refine m4.trans ((add_le_add nb3 m3).trans ?_)
  unfold tshift
  nlinarith

/-- The error of the pressure at which the limit is taken. -/
theorem pos_err (H : fp.Accurate ε κ) (hu : (κ + 10) * ε ≤ 1 / 100000) {X s a b : ℝ} (a0 : 0 ≤ a) (a1 : a ≤ 450)
    (b0 : 0 ≤ b) (b1 : b ≤ 450) (s0 : 0 ≤ s) (s1 : s ≤ 1) (eX : X = rate fp a + s * (rate fp b - rate fp a))
    (hX : |X - p * 100000| ≤ 451 * ((κ + 2) * ε) * 100000) : |a + s * (b - a) - p| ≤ pshift ε κ := by
  have e0 := H.nonneg
  have hK : 0 ≤ ((κ : ℝ) + 2) * ε := by positivity
  have rc := rate_err H hu a0 a1
  have rd := rate_err H hu b0 b1
  generalize rate fp a = A at *
  generalize rate fp b = B at *
  have e9 : (a + s * (b - a) - p) * 100000 = (1 - s) * -(A - a * 100000) +
      s * -(B - b * 100000) + (X - p * 100000) := by rw [eX]; ring
  have m1 : |(1 - s) * -(A - a * 100000)| ≤ (1 - s) * (451 * ((κ + 2) * ε) * 100000) := by
    rw [abs_mul, abs_neg, abs_of_nonneg (by linarith)]
    exact mul_le_mul_of_nonneg_left rc (by linarith)
  have m2 : |s * -(B - b * 100000)| ≤ s * (451 * ((κ + 2) * ε) * 100000) := by
    rw [abs_mul, abs_neg, abs_of_nonneg s0]
    exact mul_le_mul_of_nonneg_left rd s0
  have h9 : |(a + s * (b - a) - p) * 100000| ≤ 902 * ((κ + 2) * ε) * 100000 := by
    rw [e9]
    refine (abs_add_le _ _).trans ((add_le_add ((abs_add_le _ _).trans (add_le_add m1 m2)) hX).trans ?_)
    linarith
  rw [abs_mul, abs_of_pos (show (0 : ℝ) < 100000 by norm_num)] at h9
  unfold pshift
  linarith

/-- C118: a temperature limit returned in floating point, for a pressure below the largest rating by more than
`pshift`, is the temperature limit which the function returns in exact arithmetic for a pressure within `pshift` of the
given one, off by at most `tshift`; it is in kelvin, in the registry of the pressure. -/
theorem C118_temperature (H : fp.Accurate ε κ) (M : fp.Monotone) (hu : (κ + 10) * ε ≤ 1 / 100000)
    (hc : IsCurve material cls curve) (hx : IsBar u x p) {w : PUnit} (hw : UnitOf u x w) (o0 : w.offset = 0)
    (hb : ∃ b ∈ curve, p + pshift ε κ < b.2) {q : Quantity}
    (h : getMaxTemperatureR fp u cls x (.str material) = .ok q) :
    ∃ p', |p' - p| ≤ pshift ε κ ∧ (∀ x', IsBar u x' p' → ∃ q', getMaxTemperature u cls x' (.str material) = .ok q' ∧
      |q.mag - q'.mag| ≤ tshift ε κ) ∧ q.unit = PUnit.kelvin ∧ q.reg = outReg u x := by
  obtain ⟨tb, ht, i, hi7, hi, rfl⟩ := hc.table
  obtain ⟨v, e, hd, hp, hr⟩ := parse_any hx
  have hvw := Tube.unit_of_parse e hw
  have e0 := H.nonneg
  have κ0 : (0 : ℝ) ≤ κ := Nat.cast_nonneg κ
  have ke : 0 ≤ κ * ε := mul_nonneg κ0 e0
  have hK : 0 ≤ ((κ : ℝ) + 2) * ε := by positivity
  have hK1 : ((κ : ℝ) + 2) * ε ≤ 1 / 100000 := by nlinarith
  have ho : v.unit.offset = 0 := by rw [hvw]; exact o0
  rw [getMaxTemperatureR_eval ht hi e] at h
  rcases pressRangeR (fp := fp) M (curve_ne_nil ht.1 hi7) (msg := "Pressure out of range.") hr hd with
    ⟨h1, ⟨a, ha, ha1⟩, b', hb', hb1⟩ | ⟨h1, -⟩
  swap
  · rw [h1, err_bind] at h; simp at h
  rw [h1, ok_bind, Except.ok.injEq] at h
  subst h
  obtain ⟨b, hbm, hb2⟩ := hb
  obtain ⟨a0, a1, an⟩ := curve_rating ht.1 hi7 ha
  obtain ⟨b0, b1, bn⟩ := curve_rating ht.1 hi7 hbm
  obtain ⟨b0', b1', -⟩ := curve_rating ht.1 hi7 hb'
  have p0 : 0 ≤ p := press_nonneg H ho hp ((rate_nonneg H a0).trans ha1)
  have ps : 0 ≤ pshift ε κ := by unfold pshift; positivity
  have p1 : p ≤ 450 := by linarith
  have hX := abs_le.mp (press_err H hu ho hp p0)
  have hXp : 10001 / 10000 * ((κ + 2) * ε) * (p * 100000) ≤ 451 * ((κ + 2) * ε) * 100000 := by nlinarith
  have hrb := abs_le.mp (rate_err H hu b0 b1)
  have hXb : v.baseR fp < rate fp b.2 := by
    unfold pshift at hb2
    linarith [hX.2, hrb.1]
  have hiff : ∀ a ∈ curveOf i tb.2.2, ∀ b ∈ curveOf i tb.2.2, a.2 ≤ b.2 ↔ rate fp a.2 ≤ rate fp b.2 := by
    intro a ha b hb
    obtain ⟨a0, a1, an⟩ := curve_rating ht.1 hi7 ha
    obtain ⟨b0, b1, bn⟩ := curve_rating ht.1 hi7 hb
    exact rate_le_iff H M hu a0 a1 b0 b1 an bn
  have hsort := byRating_sorted (curveOf i tb.2.2)
  have hsort' : (byRating (curveOf i tb.2.2)).Pairwise fun a b => rate fp a.2 ≤ rate fp b.2 :=
    hsort.imp fun {a b} h => show rate fp a.2 ≤ rate fp b.2 from baseR_mono M rfl (M.mono _ _ h)
  obtain ⟨pre, c, d, suf, el, hcX, hXd⟩ := exists_pick hsort' (mem_byRating.mpr ha) ha1 (mem_byRating.mpr hbm) hXb
  have hcm : c ∈ curveOf i tb.2.2 := mem_byRating.mp (by rw [el]; simp)
  have hdm : d ∈ curveOf i tb.2.2 := mem_byRating.mp (by rw [el]; simp)
  obtain ⟨c0, c1, cn⟩ := curve_rating ht.1 hi7 hcm
  obtain ⟨d0, d1, dn⟩ := curve_rating ht.1 hi7 hdm
  obtain ⟨tc0, tc1, -⟩ := curve_temp ht.1 hcm
  obtain ⟨td0, td1, -⟩ := curve_temp ht.1 hdm
  have hcd : c.2 < d.2 := by
    by_contra hge
    have := (hiff d hdm c hcm).mp (not_lt.mp hge)
    linarith
  have hval : interpolateR fp (v.baseR fp) ((curveOf i tb.2.2).map fun a => (rate fp a.2, knot fp a.1)) =
      segR fp (v.baseR fp) (rate fp c.2, knot fp c.1) (rate fp d.2, knot fp d.1) := by
    rw [interpolateR, sortPts_map (k := fun a => rate fp a.2) (g := fun a => knot fp a.1) hiff, el]
    rw [el] at hsort'
    exact slinearR_pick (k := fun a : ℝ × ℝ => rate fp a.2) (g := fun a => knot fp a.1) hsort' hcX hXd
  set X := v.baseR fp with hXdef
  set s := (X - rate fp c.2) / (rate fp d.2 - rate fp c.2) with hs
  have hpos : 0 < rate fp d.2 - rate fp c.2 := by linarith
  have s0 : 0 ≤ s := div_nonneg (by linarith) hpos.le
  have s1 : s < 1 := (div_lt_one hpos).mpr (by linarith)
  have eX : X = rate fp c.2 + s * (rate fp d.2 - rate fp c.2) := by
    rw [hs, div_mul_cancel₀ _ hpos.ne']; ring
  have hcd0 : 0 < d.2 - c.2 := by linarith
  have q0 : c.2 ≤ c.2 + s * (d.2 - c.2) := by nlinarith
  have q1 : c.2 + s * (d.2 - c.2) < d.2 := by nlinarith
  refine ⟨c.2 + s * (d.2 - c.2), ?_, ?_, rfl, rfl⟩
  · exact pos_err H hu c0 c1 d0 d1 s0 s1.le eX
      (abs_le.mpr ⟨by linarith [hX.1], hX.2.trans hXp⟩)
  · intro x' hx'
    have hq := (getMaxTemperature_eval hc hx').1 ⟨c, hcm, q0⟩ ⟨d, hdm, q1.le⟩
    refine ⟨_, hq, ?_⟩
    have hval' : interpolate ((c.2 + s * (d.2 - c.2)) * 100000) (((curveOf i tb.2.2).map si).map Prod.swap) =
        (c.1 + 27315 / 100) + s * (d.1 - c.1) := by
      have em : ((curveOf i tb.2.2).map si).map Prod.swap =
          (curveOf i tb.2.2).map fun a => (a.2 * 100000, a.1 + 27315 / 100) := by
        rw [List.map_map]; rfl
      rw [em, interpolate, sortPts_map (k := fun a => a.2 * 100000) (g := fun a => a.1 + 27315 / 100), el,
        ← slinearR_exact]
      · rw [el] at hsort
        rw [slinearR_pick (k := fun a : ℝ × ℝ => a.2 * 100000) (g := fun a => a.1 + 27315 / 100), segR_exact]
        · simp only
          have : d.2 * 100000 - c.2 * 100000 ≠ 0 := by
            have := hcd0.ne'; intro h; apply this; linarith
          field_simp
          ring
        · simp only; intro h; linarith
        · exact hsort.imp fun h => by linarith
        · linarith
        · linarith
      · intro a _ b _
        constructor <;> intro h <;> linarith
    simp only
    rw [hval', hval]
    exact temp_err H hu hXd.le hcX hpos tc0 tc1 td0 td1

/-- C118: a pressure inside the ratings of the class by more than `pshift` is accepted, one outside by more than
`pshift` raises ValueError. -/
theorem C118_range (H : fp.Accurate ε κ) (M : fp.Monotone) (hu : (κ + 10) * ε ≤ 1 / 100000)
    (hc : IsCurve material cls curve) (hx : IsBar u x p) {w : PUnit} (hw : UnitOf u x w) (o0 : w.offset = 0) :
    ((∃ a ∈ curve, a.2 + pshift ε κ < p) → (∃ b ∈ curve, p + pshift ε κ < b.2) →
      ∃ q, getMaxTemperatureR fp u cls x (.str material) = .ok q) ∧
    ((∀ a ∈ curve, p + pshift ε κ < a.2) ∨ (∀ b ∈ curve, b.2 + pshift ε κ < p) →
      getMaxTemperatureR fp u cls x (.str material) = .error (.valueError "Pressure out of range.")) := by
  obtain ⟨tb, ht, i, hi7, hi, rfl⟩ := hc.table
  obtain ⟨v, e, hd, hp, hr⟩ := parse_any hx
  have hvw := Tube.unit_of_parse e hw
  have e0 := H.nonneg
  have κ0 : (0 : ℝ) ≤ κ := Nat.cast_nonneg κ
  have hK : 0 ≤ ((κ : ℝ) + 2) * ε := by positivity
  have hK1 : ((κ : ℝ) + 2) * ε ≤ 1 / 100000 := by nlinarith
  have ho : v.unit.offset = 0 := by rw [hvw]; exact o0
  have hps : pshift ε κ = 910 * ((κ + 2) * ε) := by unfold pshift; ring
  have ps : 0 ≤ pshift ε κ := by unfold pshift; positivity
  have hcell : ∀ a ∈ curveOf i tb.2.2, 0 ≤ a.2 ∧ a.2 ≤ 450 ∧ |rate fp a.2 - a.2 * 100000| ≤
      451 * ((κ + 2) * ε) * 100000 := by
    intro a ha
    obtain ⟨a0, a1, -⟩ := curve_rating ht.1 hi7 ha
    exact ⟨a0, a1, rate_err H hu a0 a1⟩
  rw [getMaxTemperatureR_eval ht hi e]
  constructor
  · rintro ⟨a, ha, ha1⟩ ⟨b, hb, hb1⟩
    obtain ⟨a0, -, ka⟩ := hcell a ha
    obtain ⟨-, b2, kb⟩ := hcell b hb
    have ka := abs_le.mp ka
    have kb := abs_le.mp kb
    have p0 : 0 ≤ p := by linarith
    have hX := abs_le.mp (press_err H hu ho hp p0)
    have hXp : 10001 / 10000 * ((κ + 2) * ε) * (p * 100000) ≤ 451 * ((κ + 2) * ε) * 100000 := by nlinarith
    rcases pressRangeR (fp := fp) M (curve_ne_nil ht.1 hi7) (msg := "Pressure out of range.") hr hd with
      ⟨h1, -⟩ | ⟨-, h1 | h1⟩
    · rw [h1, ok_bind]; exact ⟨_, rfl⟩
    · have := h1 a ha; rw [hps] at ha1; linarith [ka.2, hX.1]
    · have := h1 b hb; rw [hps] at hb1; linarith [kb.1, hX.2]
  · intro hout
    rcases pressRangeR (fp := fp) M (curve_ne_nil ht.1 hi7) (msg := "Pressure out of range.") hr hd with
      ⟨-, ⟨a, ha, ha1⟩, b, hb, hb1⟩ | ⟨h1, -⟩
    · exfalso
      obtain ⟨a0, a2, ka⟩ := hcell a ha
      obtain ⟨b0, b2, kb⟩ := hcell b hb
      have ka := abs_le.mp ka
      have kb := abs_le.mp kb
      have p0 : 0 ≤ p := press_nonneg H ho hp ((rate_nonneg H a0).trans ha1)
      have hX := abs_le.mp (press_err H hu ho hp p0)
      rcases hout with h | h
      · have := h a ha
        have hXp : 10001 / 10000 * ((κ + 2) * ε) * (p * 100000) ≤ 451 * ((κ + 2) * ε) * 100000 := by nlinarith
        rw [hps] at this
        linarith [ka.1, hX.2]
      · have := h b hb
        rw [hps] at this
        have h3 : 10001 / 10000 * ((κ + 2) * ε) * (p * 100000) =
          10001 / 10000 * ((κ + 2) * ε) * (b.2 * 100000) + 10001 / 10000 * ((κ + 2) * ε) * ((p - b.2) * 100000) := by
            ring
        have h4 : 10001 / 10000 * ((κ + 2) * ε) * (b.2 * 100000) ≤ 451 * ((κ + 2) * ε) * 100000 := by nlinarith
        have h5 : 10001 / 10000 * ((κ + 2) * ε) * ((p - b.2) * 100000) ≤ 1 / 1000 * ((p - b.2) * 100000) := by
          apply mul_le_mul_of_nonneg_right _ (by linarith)
          linarith
        linarith [kb.2, hX.1]
    · rw [h1]; rfl

/-- C118: for pressures given in bar the range check has no such margin: every pressure that is a floating-point
number, between the smallest and the largest rating, ends included, is accepted. -/
theorem C118_range_bar (M : fp.Monotone) (hc : IsCurve material cls curve) (hx : IsBar u x p)
    (hw : UnitOf u x PUnit.bar) (hp : fp.rnd p = p) (ha : ∃ a ∈ curve, a.2 ≤ p) (hb : ∃ b ∈ curve, p ≤ b.2) :
    ∃ q, getMaxTemperatureR fp u cls x (.str material) = .ok q := by
  obtain ⟨tb, ht, i, hi7, hi, rfl⟩ := hc.table
  obtain ⟨v, e, hd, hph, hr⟩ := parse_any hx
  have hvw := Tube.unit_of_parse e hw
  have hm : v.mag = p := by
    rw [phys, hvw] at hph; simp only [PUnit.bar] at hph; linarith
  rw [getMaxTemperatureR_eval ht hi e]
  obtain ⟨a, ha, ha1⟩ := ha
  obtain ⟨b, hb, hb1⟩ := hb
  have hne : ((curveOf i tb.2.2).map fun a => fp.rnd a.2) ≠ [] := by
    intro h
    exact curve_ne_nil ht.1 hi7 (List.map_eq_nil_iff.mp h)
  have h1 := (seriesMin_spec hne).2 _ (List.mem_map.mpr ⟨a, ha, rfl⟩)
  have h2 := (seriesMax_spec hne).2 _ (List.mem_map.mpr ⟨b, hb, rfl⟩)
  have h3 := M.mono _ _ ha1
  have h4 := M.mono _ _ hb1
  rw [hp] at h3 h4
  have hck : checkRangeR fp v (seriesMin ((curveOf i tb.2.2).map fun a => fp.rnd a.2))
        (seriesMax ((curveOf i tb.2.2).map fun a => fp.rnd a.2)) PUnit.bar u.id "Pressure out of range." = .ok () := by
    simp only [checkRangeR, lessR, sameReg, hr, hvw, if_true, ok_bind, hm]
    rw [if_neg]
    simp only [decide_eq_true_eq, not_or, not_lt]
    exact ⟨h1.trans h3, h4.trans h2⟩
  rw [hck, ok_bind]
  exact ⟨_, rfl⟩

/-- 12.5 bar in double precision, class 150, type 304: a limit is returned, within 1e-11 K of the exact limit at a
pressure less than 1e-12 bar away. -/
example (u : Registry) : ∃ q p', getMaxTemperatureR FP.double u "150" (.quantity ⟨12.5, PUnit.bar, 0⟩) (.str "304") =
      .ok q ∧ |p' - 12.5| ≤ 1 / 10 ^ 12 ∧ ∃ q', getMaxTemperature u "150" (.quantity ⟨p', PUnit.bar, 0⟩) (.str "304") =
      .ok q' ∧ |q.mag - q'.mag| ≤ 1 / 10 ^ 11 := by
  have hc : IsCurve "304" "150" (curveOf 0 Data.group21Rows) :=
    ⟨("304", "2.1", 200, 78, 28), by decide, rfl, _, List.mem_cons_self, rfl, 0, rfl, rfl⟩
  have hx : ∀ p, IsBar u (.quantity ⟨p, PUnit.bar, 0⟩) p := fun p => ⟨rfl, by simp [PUnit.bar]⟩
  have hs : pshift ((1 / 2) ^ 53) 1 ≤ 1 / 10 ^ 12 := by norm_num [pshift]
  have mem : ∀ r ∈ Data.group21Rows, ((r.1 : ℝ), cellBar 0 r) ∈ curveOf 0 Data.group21Rows :=
    fun r h => List.mem_map.mpr ⟨r, h, rfl⟩
  have ma := mem (400, [some 65, some 284, some 379, some 569, some 853, some 1422, some 2370]) (by decide +kernel)
  have mb := mem (50, [some 183, some 478, some 638, some 956, some 1435, some 2391, some 3985]) (by decide +kernel)
  have hlo : ∃ a ∈ curveOf 0 Data.group21Rows, a.2 + pshift ((1 / 2) ^ 53) 1 < 12.5 := by
    refine ⟨_, ma, ?_⟩
    norm_num [cellBar] at hs ⊢
    linarith
  have hhi : ∃ b ∈ curveOf 0 Data.group21Rows, 12.5 + pshift ((1 / 2) ^ 53) 1 < b.2 := by
    refine ⟨_, mb, ?_⟩
    norm_num [cellBar] at hs ⊢
    linarith
  obtain ⟨q, hq⟩ := (C118_range FP.double_accurate FP.double_monotone (by norm_num) hc (hx 12.5) (w := PUnit.bar)
    rfl rfl).1 hlo hhi
  obtain ⟨p', h1, h2, -⟩ := C118_temperature FP.double_accurate FP.double_monotone (by norm_num) hc (hx 12.5)
    (w := PUnit.bar) rfl rfl hhi hq
  obtain ⟨q', h3, h4⟩ := h2 _ (hx p')
  exact ⟨q, p', hq, h1.trans hs, q', h3, h4.trans (by norm_num [tshift])⟩

end Pypbomb.Flange
