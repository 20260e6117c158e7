/-
C113: in floating point, the rating returned by `get_max_pressure` given back to `get_class`.
-/
import Verif.Props.RoundedFlange

namespace Pypbomb

/-- Rounding to 53 bits by finding the nearest float. -/
theorem binRnd_eq {x : ℝ} {k j : ℤ} (h1 : 2 ^ 52 < k) (h2 : k < 2 ^ 53) (h : |x - k * 2 ^ j| < 2 ^ j / 2) :
    binRnd 53 x = k * 2 ^ j := by
  have tp : (0 : ℝ) < 2 ^ j := zpow_pos two_pos _
  have k1 : ((2 : ℝ) ^ 52 + 1) ≤ k := by exact_mod_cast h1
  have k2 : (k : ℝ) + 1 ≤ 2 ^ 53 := by exact_mod_cast h2
  rw [abs_lt] at h
  have lo : (2 : ℝ) ^ (52 + j) < x := by
    rw [zpow_add₀ two_ne_zero]
    have := mul_le_mul_of_nonneg_right k1 tp.le
    norm_num at this ⊢
    linarith [h.1]
  have hi : x < (2 : ℝ) ^ (53 + j) := by
    rw [zpow_add₀ two_ne_zero]
    have := mul_le_mul_of_nonneg_right k2 tp.le
    norm_num at this ⊢
    linarith [h.2]
  have xp : 0 < x := (zpow_pos two_pos _).trans lo
  have b1 : (2 : ℝ) ^ Int.log 2 x ≤ x := by
    have := Int.zpow_log_le_self (R := ℝ) (b := 2) (by norm_num) xp
    exact_mod_cast this
  have b2 : x < (2 : ℝ) ^ (Int.log 2 x + 1) := by
    have := Int.lt_zpow_succ_log_self (R := ℝ) (b := 2) (by norm_num) x
    exact_mod_cast this
  have l1 := (zpow_lt_zpow_iff_right₀ one_lt_two).mp (b1.trans_lt hi)
  have l2 := (zpow_lt_zpow_iff_right₀ one_lt_two).mp (lo.trans b2)
  have hl : Int.log 2 x + 1 - ((53 : ℕ) : ℤ) = j := by push_cast; omega
  rw [binRnd, if_pos xp, binPos, hl]
  congr 2
  rw [round_eq, Int.floor_eq_iff]
  constructor
  · rw [← sub_le_iff_le_add, le_div_iff₀ tp]; linarith [h.1]
  · rw [← lt_sub_iff_add_lt, div_lt_iff₀ tp]; linarith [h.2]

namespace Flange
open Quantity

variable {fp : FP} {ε : ℝ} {κ : ℕ} {u reg : Registry} {material c : String} {curve : List (ℝ × ℝ)} {y : QIn}
  {t : ℝ} {n : ℕ}

/-- `get_class` after the lookups. -/
theorem getClassR_eval {x : QIn} {tb : String × List String × List (Int × List (Option Nat))} (ht : IsTable material tb)
    {q w : Quantity} (e1 : parseQ x reg = .ok q) (e2 : parseQ y reg = .ok w) (d1 : q.unit.dim = Dim.pressure)
    (d2 : w.unit.dim = Dim.temperature) (n1 : 0 ≤ q.baseR fp) (n2 : 0 ≤ w.baseR fp) :
    getClassR fp u reg x y (.str material) = (do
      checkMaxPressureR fp ⟨q.mag, q.unit, u.id⟩ (seriesMax (tb.2.2.map fun r => fp.rnd (cellBar 6 r))) u.id
      checkRangeR fp ⟨w.mag, w.unit, u.id⟩ (seriesMin ((roundFrame fp (frameOf tb.2)).rows.map (·.1)))
        (seriesMax ((roundFrame fp (frameOf tb.2)).rows.map (·.1))) PUnit.degC u.id "Temperature out of range."
      firstClassR fp (roundFrame fp (frameOf tb.2)) (w.baseR fp) (q.baseR fp)) := by
  have hcols := table_cols tb ht.1
  have hkey : maxKey (roundFrame fp (frameOf tb.2)).cols "0" = .ok "2500" := by
    show maxKey tb.2.1 "0" = _
    rw [hcols]; exact maxKey_eq
  have hi : tb.2.1[6]? = some "2500" := by rw [hcols]; rfl
  have hcol := colBarR_eq (fp := fp) ht.1 hi
  rw [curveOf, List.map_map] at hcol
  have pq : ∀ z : Quantity, parseQ (.quantity z) u = .ok ⟨z.mag, z.unit, u.id⟩ := fun _ => rfl
  have c1 := (checkBaseR_ok_iff (fp := fp) lookup_pressure).mpr ⟨d1, n1⟩
  have c2 := (checkBaseR_ok_iff (fp := fp) lookup_temperature).mpr ⟨d2, n2⟩
  simp only [getClassR, withLimitsR_eq, e1, e2, ok_bind, c1, c2, pq, lookupGroupR_eq ht, hkey, hcol]
  rfl

/-- C112: a class is found whenever the temperature is inside the table by more than `shift` and class 2500 is rated
above the pressure, with a margin of `2κ + 9` roundings, at every temperature within `shift`. -/
theorem C112_class_found {x : QIn} {p : ℝ} (H : fp.Accurate ε κ) (M : fp.Monotone) (hu : (κ + 10) * ε ≤ 1 / 100000)
    (hx : IsBar reg x p) (hy : IsDegC reg y t) {v w : PUnit} (hv : UnitOf reg x v) (hw : UnitOf reg y w)
    (v0 : v.offset = 0) (o0 : 0 ≤ w.offset) (o1 : w.offset ≤ 300) (p0 : 0 ≤ p) (hc : IsCurve material "2500" curve)
    (ha : ∃ a ∈ curve, a.1 + shift ε κ < t) (hb : ∃ b ∈ curve, t + shift ε κ < b.1)
    (hr : ∀ t' r, |t' - t| ≤ shift ε κ → On curve t' r → p < r * (1 - ε) ^ (2 * κ + 9)) :
    ∃ c, getClassR fp u reg x y (.str material) = .ok c := by
  have h0 := H.nonneg; have hl := H.lt_one
  have κ0 : (0 : ℝ) ≤ κ := Nat.cast_nonneg κ
  have ke : 0 ≤ κ * ε := mul_nonneg κ0 h0
  have sh := shift_nonneg (fp := fp) H
  obtain ⟨tb, ht, i, hi7, hi, rfl⟩ := hc.table
  have h6 : tb.2.1[6]? = some "2500" := by rw [table_cols tb ht.1]; rfl
  obtain rfl : i = 6 := (class_order ht.1 hi h6 (n := 2500) (n' := 2500) (by decide) (by decide)).2.mp rfl
  obtain ⟨q, e1, d1, hp, -⟩ := parse_any hx
  obtain ⟨z, e2, d2, hz, -⟩ := parse_any hy
  have hqv := Tube.unit_of_parse e1 hv
  have hzw := Tube.unit_of_parse e2 hw
  obtain ⟨a, ha0, ha1⟩ := ha
  obtain ⟨b, hb0, hb1⟩ := hb
  obtain ⟨a, ham, rfl⟩ := List.mem_map.mp ha0
  obtain ⟨b, hbm, rfl⟩ := List.mem_map.mp hb0
  obtain ⟨a1, a2, -⟩ := curve_temp ht.1 ha0
  obtain ⟨b1, b2, -⟩ := curve_temp ht.1 hb0
  simp only at ha1 hb1 a1 a2 b1 b2
  have hX := baseR_err H (hu.trans (by norm_num)) hz (by linarith) (by linarith) (by rwa [hzw]) (by rwa [hzw])
  have np := pressure_near H (by rw [hqv]; exact v0) hp
  have P0 := Near.nonneg h0 hl (by positivity) np
  have ka := abs_le.mp (knot_err H hu a1 a2)
  have kb := abs_le.mp (knot_err H hu b1 b2)
  have hs : 4080 * (κ * ε) + 9620 * ε ≤ shift ε κ := by unfold shift; nlinarith
  have hXa := abs_le.mp hX
  have hsm : 2040 * (κ * ε) + 4400 * ε ≤ 2 / 5 := by nlinarith
  rw [getClassR_eval ht e1 e2 d1 d2 P0 (by linarith [hXa.1])]
  have hra : knot fp a.1 < z.baseR fp := by linarith [ka.2, hXa.1]
  have hrb : z.baseR fp < knot fp b.1 := by linarith [kb.1, hXa.2]
  have hrange : checkRangeR fp ⟨z.mag, z.unit, u.id⟩ (seriesMin ((roundFrame fp (frameOf tb.2)).rows.map (·.1)))
      (seriesMax ((roundFrame fp (frameOf tb.2)).rows.map (·.1))) PUnit.degC u.id "Temperature out of range." =
      .ok () := by
    rcases tempRangeR M ht.1 (q := ⟨z.mag, z.unit, u.id⟩) (r := u.id) (msg := "Temperature out of range.") rfl d2 with
      ⟨h, -⟩ | ⟨-, h | h⟩
    · exact h
    · exact absurd (h a ham) (not_le.mpr hra)
    · exact absurd (h b hbm) (not_le.mpr hrb)
  obtain ⟨t', hd, c, hcm, d, hdm, s, s0, s1, hall⟩ := interpolateR_seg H hu ht.1 hX ⟨a, ham, hra.le⟩ ⟨b, hbm, hrb.le⟩
  obtain ⟨on6, near6⟩ := hall 6 _ h6
  have hpr := hr t' _ hd on6
  have cell0 : ∀ r, 0 ≤ cellBar 6 r := fun r => by simp only [cellBar]; positivity
  set R := cellBar 6 c + (cellBar 6 d - cellBar 6 c) * s with hR
  have R0 : 0 ≤ R := by
    have h3 := mul_nonneg (cell0 c) (sub_nonneg.mpr s1)
    have h4 := mul_nonneg (cell0 d) s0
    linarith
  have less : ∀ {m : ℕ} {S S' : ℝ}, m ≤ κ + 8 → R ≤ S → Near ε m (S * 100000) S' → q.baseR fp < S' := by
    intro m S S' hm hS hn
    by_contra hle
    have := near_le h0 hl (Near.mono h0 hl hm hn) np (mul_nonneg (R0.trans hS) (by norm_num)) (by positivity)
      (not_lt.mp hle)
    rw [show κ + 8 + (κ + 1) = 2 * κ + 9 by ring] at this
    have hpw := (Near.pow_bounds h0 hl (2 * κ + 9)).1.le
    have := mul_le_mul_of_nonneg_right hS hpw
    linarith
  have hne : (tb.2.2.map fun r => fp.rnd (cellBar 6 r)) ≠ [] := by
    intro hnil
    rw [List.map_eq_nil_iff] at hnil
    rw [hnil] at ham; simp at ham
  have hmax : checkMaxPressureR fp ⟨q.mag, q.unit, u.id⟩ (seriesMax (tb.2.2.map fun r => fp.rnd (cellBar 6 r))) u.id =
      .ok () := by
    obtain ⟨M1, M2⟩ := seriesMax_spec hne
    obtain ⟨dd, f1, f2, -⟩ := lessR_spec M (a := ⟨seriesMax (tb.2.2.map fun r => fp.rnd (cellBar 6 r)), PUnit.bar, u.id⟩)
      (b := ⟨q.mag, q.unit, u.id⟩) rfl (by rw [d1]; rfl)
    simp only [checkMaxPressureR, f1, ok_bind]
    cases dd with
    | false => rfl
    | true =>
      exfalso
      have key : ∃ r ∈ tb.2.2, R ≤ cellBar 6 r := by
        rcases le_total (cellBar 6 c) (cellBar 6 d) with hle | hle
        · refine ⟨d, hdm, ?_⟩
          have := mul_le_mul_of_nonneg_left s1 (sub_nonneg.mpr hle)
          linarith
        · refine ⟨c, hcm, ?_⟩
          have := mul_nonneg (sub_nonneg.mpr hle) s0
          linarith
      obtain ⟨r, hrm, hRr⟩ := key
      have l1 := less (by omega) hRr (rate_near H (cellBar 6 r))
      have l2 : rate fp (cellBar 6 r) ≤ (⟨seriesMax (tb.2.2.map fun r => fp.rnd (cellBar 6 r)), PUnit.bar, u.id⟩ :
          Quantity).baseR fp := baseR_mono M rfl (M2 _ (List.mem_map.mpr ⟨r, hrm, rfl⟩))
      exact absurd (l2.trans (f2 rfl)) (not_le.mpr l1)
  obtain ⟨c', hc'⟩ := firstClassR_total (fp := fp) h6 (less le_rfl le_rfl near6).le
  exact ⟨c', by simp only [hmax, hrange, ok_bind, hc']⟩

/-- The check of the largest pressure, for a pressure in pascal. -/
theorem checkMaxPressureR_pascal (M : fp.Monotone) {l : List ℝ} (hne : l ≠ []) (v : ℝ) (r : ℕ) :
    ((∀ b ∈ l, (⟨b, PUnit.bar, 0⟩ : Quantity).baseR fp < v) →
      checkMaxPressureR fp ⟨v, PUnit.pascal, r⟩ (seriesMax l) r = .error (.valueError "Pressure out of range.")) ∧
    ((∃ b ∈ l, v ≤ (⟨b, PUnit.bar, 0⟩ : Quantity).baseR fp) →
      checkMaxPressureR fp ⟨v, PUnit.pascal, r⟩ (seriesMax l) r = .ok ()) := by
  obtain ⟨M1, M2⟩ := seriesMax_spec hne
  have hpb : PUnit.pascal = PUnit.base PUnit.pascal.dim := rfl
  have hne' : PUnit.bar ≠ PUnit.pascal := by
    intro h
    have := congrArg PUnit.scale h
    simp [PUnit.bar, PUnit.pascal, PUnit.base] at this
  have hd : PUnit.bar.dim = PUnit.pascal.dim := rfl
  have hv : (⟨v, PUnit.pascal, r⟩ : Quantity).baseR fp = v := by
    simp only [baseR]; rw [if_pos hpb]
  have hev : checkMaxPressureR fp ⟨v, PUnit.pascal, r⟩ (seriesMax l) r =
      if (⟨seriesMax l, PUnit.bar, 0⟩ : Quantity).baseR fp < v then .error (.valueError "Pressure out of range.")
      else .ok () := by
    simp only [checkMaxPressureR, lessR, sameReg, if_true, ok_bind, if_neg hne', if_pos hd, hv, decide_eq_true_eq]
    rfl
  rw [hev]
  constructor
  · intro h; rw [if_pos (h _ M1)]
  · rintro ⟨b, hb, h⟩
    rw [if_neg]
    have := baseR_mono M (a := ⟨b, PUnit.bar, 0⟩) (b := ⟨seriesMax l, PUnit.bar, 0⟩) rfl (M2 b hb)
    linarith

/-- In every row of the tables a class is rated at least 1.3 times as high as every smaller class, and every class
except the smallest at more than 0. -/
theorem table_gap : ∀ tb ∈ ratingTables, ∀ r ∈ tb.2.2, ∀ i < 7, ∀ j < 7, i < j →
    13 * ((r.2[i]?).join.getD 0) ≤ 10 * ((r.2[j]?).join.getD 0) ∧ 0 < (r.2[j]?).join.getD 0 := by decide +kernel

theorem cell_gap {tb : String × List String × List (Int × List (Option Nat))} (ht : tb ∈ ratingTables)
    {r : Int × List (Option Nat)} (hr : r ∈ tb.2.2) {i j : ℕ} (hj : j < 7) (hij : i < j) :
    cellBar i r * 1.3 ≤ cellBar j r ∧ 0 < cellBar j r := by
  obtain ⟨h1, h2⟩ := table_gap tb ht r hr i (by omega) j hj hij
  have h1 : (13 : ℝ) * (((r.2[i]?).join.getD 0 : ℕ) : ℝ) ≤ 10 * (((r.2[j]?).join.getD 0 : ℕ) : ℝ) := by exact_mod_cast h1
  have h2 : (0 : ℝ) < (((r.2[j]?).join.getD 0 : ℕ) : ℝ) := by exact_mod_cast h2
  simp only [cellBar]
  constructor <;> linarith

/-- Two numbers that differ by the factor 1.3 stay apart. -/
theorem near_gap (h0 : 0 ≤ ε) (h1 : ε < 1) (hu : (κ + 10) * ε ≤ 1 / 100000) {a b a' b' : ℝ} (a0 : 0 ≤ a)
    (hb0 : 0 < b) (hab : a * 1.3 ≤ b) (ha : Near ε (κ + 8) a a') (hb : Near ε (κ + 8) b b') : a' < b' := by
  by_contra hn
  have := near_le h0 h1 hb ha hb0.le a0 (not_lt.mp hn)
  have κ0 : (0 : ℝ) ≤ κ := Nat.cast_nonneg κ
  have hpow : 1 - ((κ + 8 + (κ + 8) : ℕ) : ℝ) * ε ≤ (1 - ε) ^ (κ + 8 + (κ + 8)) := by
    have := one_add_mul_le_pow (show (-2 : ℝ) ≤ -ε by linarith) (κ + 8 + (κ + 8))
    calc 1 - ((κ + 8 + (κ + 8) : ℕ) : ℝ) * ε = 1 + ((κ + 8 + (κ + 8) : ℕ) : ℝ) * -ε := by ring
      _ ≤ (1 + -ε) ^ (κ + 8 + (κ + 8)) := this
      _ = (1 - ε) ^ (κ + 8 + (κ + 8)) := by ring
  push_cast at hpow
  have h2 : 0.9 ≤ (1 - ε) ^ (κ + 8 + (κ + 8)) := by nlinarith
  have := mul_le_mul_of_nonneg_left h2 hb0.le
  linarith

/-- C113, proved part: in floating point, the rating of a class returned by `get_max_pressure` at a temperature, given
back to `get_class` at this temperature, selects that class, for every class but the largest; for class 2500 the
outcome is class 2500 or ValueError. -/
theorem C113_partial (H : fp.Accurate ε κ) (M : fp.Monotone) (hu : (κ + 10) * ε ≤ 1 / 100000)
    (hc : IsCurve material c curve) (hy : IsDegC u y t) {w : PUnit} (hw : UnitOf u y w) (hw' : UnitOf reg y w)
    (o0 : 0 ≤ w.offset) (o1 : w.offset ≤ 300) (t0 : -27315 / 100 ≤ t) (t1 : t ≤ 1700) {q : Quantity}
    (h : getMaxPressureR fp u c y (.str material) = .ok q) :
    (c ≠ "2500" → getClassR fp u reg (.quantity q) y (.str material) = .ok c) ∧
    (c = "2500" → getClassR fp u reg (.quantity q) y (.str material) = .ok "2500" ∨
      getClassR fp u reg (.quantity q) y (.str material) = .error (.valueError "Pressure out of range.")) := by
  have h0 := H.nonneg; have hl := H.lt_one
  have κ0 : (0 : ℝ) ≤ κ := Nat.cast_nonneg κ
  have ke : 0 ≤ κ * ε := mul_nonneg κ0 h0
  obtain ⟨tb, ht, i, hi7, hi, rfl⟩ := hc.table
  obtain ⟨k, f1, f2⟩ := parse_two hw hw'
  obtain ⟨n1, r1⟩ := denotes_of_parse f1
  obtain ⟨d1, p1⟩ := Denotes.unique n1 hy
  simp only at d1
  have hX := baseR_err H (hu.trans (by norm_num)) p1 (by linarith) (by linarith) o0 o1
  rw [getMaxPressureR_eval ht hi f1] at h
  rcases tempRangeR M ht.1 (q := ⟨k, w, u.id⟩) (msg := "Temperature out of range.") rfl d1 with ⟨hr, ha, hb⟩ | ⟨hr, -⟩
  swap
  · rw [hr, err_bind] at h; simp at h
  rw [hr, ok_bind, Except.ok.injEq] at h
  subst h
  obtain ⟨t', -, a, ham, b, hbm, s, s0, s1, hall⟩ := interpolateR_seg H hu ht.1 hX ha hb
  set X := (⟨k, w, u.id⟩ : Quantity).baseR fp with hXdef
  set R : String → ℝ := fun c => interpolateR fp X (curveSIR fp (roundFrame fp (frameOf tb.2)) c) with hR
  have cell0 : ∀ i r, 0 ≤ cellBar i r := fun i r => by simp only [cellBar]; positivity
  have comb0 : ∀ i, 0 ≤ cellBar i a + (cellBar i b - cellBar i a) * s := by
    intro i
    have h3 := mul_nonneg (cell0 i a) (sub_nonneg.mpr s1)
    have h4 := mul_nonneg (cell0 i b) s0
    linarith
  have gap : ∀ {j l : ℕ} {cj cl : String}, tb.2.1[j]? = some cj → tb.2.1[l]? = some cl → l < 7 → j < l → R cj < R cl := by
    intro j l cj cl hj hl' hl7 hjl
    obtain ⟨g1, g2⟩ := cell_gap ht.1 ham hl7 hjl
    obtain ⟨g3, g4⟩ := cell_gap ht.1 hbm hl7 hjl
    refine near_gap h0 hl hu (mul_nonneg (comb0 j) (by norm_num)) ?_ ?_ (hall j cj hj).2 (hall l cl hl').2
    · have : 0 < cellBar l a + (cellBar l b - cellBar l a) * s := by
        rcases s1.eq_or_lt with e | e
        · rw [e]; linarith
        · have h3 := mul_pos g2 (sub_pos.mpr e)
          have h4 := mul_nonneg (cell0 l b) s0
          linarith
      positivity
    · have h3 := mul_le_mul_of_nonneg_right g1 (sub_nonneg.mpr s1)
      have h4 := mul_le_mul_of_nonneg_right g3 s0
      linarith
  have hcols := table_cols tb ht.1
  have h6 : tb.2.1[6]? = some "2500" := by rw [hcols]; rfl
  have Rn : ∀ {j : ℕ} {cj : String}, tb.2.1[j]? = some cj → 0 ≤ R cj := by
    intro j cj hj
    exact Near.nonneg h0 hl (mul_nonneg (comb0 j) (by norm_num)) (hall j cj hj).2
  have hpb : (⟨R c, PUnit.pascal, reg.id⟩ : Quantity).baseR fp = R c := by
    have : PUnit.pascal = PUnit.base PUnit.pascal.dim := rfl
    simp only [baseR]; rw [if_pos this]
  have X0 : 0 ≤ X := by
    obtain ⟨a, ha, ha'⟩ := ha
    obtain ⟨c1, c2, -⟩ := curve_temp ht.1 (i := 0) (List.mem_map.mpr ⟨a, ha, rfl⟩)
    have := abs_le.mp (knot_err H hu c1 c2)
    simp only at this c1
    have hsm : 2040 * (κ * ε) + 5220 * ε ≤ 2 / 5 := by nlinarith
    linarith [this.1]
  have hev := getClassR_eval (fp := fp) (u := u) (reg := reg) (x := .quantity ⟨R c, PUnit.pascal, outReg u y⟩) (y := y)
    ht (q := ⟨R c, PUnit.pascal, reg.id⟩) (w := ⟨k, w, reg.id⟩) rfl f2 rfl d1 (by rw [hpb]; exact Rn hi) X0
  rw [hev, hpb]
  -- the class found
  have hfirst : firstClassR fp (roundFrame fp (frameOf tb.2)) X (R c) = .ok c := by
    obtain ⟨c', hc'⟩ := firstClassR_total (fp := fp) (X := X) (P := R c) hi le_rfl
    rw [hc']
    obtain ⟨l1, l2, el, h1, h2⟩ := firstClassR_ok ht.1 hc'
    have hcm' : c' ∈ classes.map (·.1) := by rw [el]; simp
    obtain ⟨j, hj7, hj⟩ := class_index ht hcm'
    have hcm : c ∈ classes.map (·.1) := by rw [← hcols]; exact List.mem_of_getElem? hi
    obtain ⟨⟨c1, n⟩, hn, e1⟩ := List.mem_map.mp hcm
    obtain ⟨⟨c2, n'⟩, hn', e2⟩ := List.mem_map.mp hcm'
    simp only at e1 e2
    subst e1 e2
    obtain ⟨o1, o2⟩ := class_order ht.1 hi hj hn hn'
    rcases lt_trichotomy n n' with hlt | he | hgt
    · have := h2 c1 ((classes_split el hn' hn).1 hlt)
      exact absurd this (lt_irrefl _)
    · have : i = j := o2.mp he
      subst this
      rw [hi] at hj
      simp only [Option.some.injEq] at hj
      rw [hj]
    · have hji : j < i := (class_order ht.1 hj hi hn' hn).1.mp hgt
      exact absurd (gap hj hi hi7 hji) (not_lt.mpr h1)
  have hne : (tb.2.2.map fun r => fp.rnd (cellBar 6 r)) ≠ [] := by
    intro hnil
    rw [List.map_eq_nil_iff] at hnil
    have := table_rows tb ht.1
    rw [hnil] at this; simp at this
  obtain ⟨m1, m2⟩ := checkMaxPressureR_pascal M hne (R c) u.id
  have hok : checkMaxPressureR fp ⟨R c, PUnit.pascal, u.id⟩ (seriesMax (tb.2.2.map fun r => fp.rnd (cellBar 6 r))) u.id =
      .ok () → ((do
      checkMaxPressureR fp ⟨R c, PUnit.pascal, u.id⟩ (seriesMax (tb.2.2.map fun r => fp.rnd (cellBar 6 r))) u.id
      checkRangeR fp ⟨k, w, u.id⟩ (seriesMin ((roundFrame fp (frameOf tb.2)).rows.map (·.1)))
        (seriesMax ((roundFrame fp (frameOf tb.2)).rows.map (·.1))) PUnit.degC u.id "Temperature out of range."
      firstClassR fp (roundFrame fp (frameOf tb.2)) X (R c)) : Py String) = .ok c := by
    intro h; rw [h, hr, ok_bind, ok_bind, hfirst]
  constructor
  · intro hc25
    refine hok (m2 ?_)
    have hi6 : i < 6 := by
      rcases Nat.lt_or_ge i 6 with h | h
      · exact h
      · obtain rfl : i = 6 := by omega
        rw [h6, Option.some.injEq] at hi
        exact absurd hi.symm hc25
    -- one of the two rows has a rating of class 2500 above this rating
    have key : ∃ r ∈ tb.2.2, (cellBar i a + (cellBar i b - cellBar i a) * s) * 1.3 ≤ cellBar 6 r ∧ 0 < cellBar 6 r := by
      obtain ⟨g1, g2⟩ := cell_gap ht.1 ham (j := 6) (by norm_num) hi6
      obtain ⟨g3, g4⟩ := cell_gap ht.1 hbm (j := 6) (by norm_num) hi6
      rcases le_total (cellBar i a) (cellBar i b) with hle | hle
      · refine ⟨b, hbm, ?_, g4⟩
        have := mul_le_mul_of_nonneg_left s1 (sub_nonneg.mpr hle)
        linarith
      · refine ⟨a, ham, ?_, g2⟩
        have := mul_nonneg (sub_nonneg.mpr hle) s0
        linarith
    obtain ⟨r, hrm, k1, k2⟩ := key
    refine ⟨_, List.mem_map.mpr ⟨r, hrm, rfl⟩, ?_⟩
    have nr : Near ε (κ + 8) (cellBar 6 r * 100000) (rate fp (cellBar 6 r)) :=
      Near.mono h0 hl (by omega) (rate_near H (cellBar 6 r))
    exact (near_gap h0 hl hu (mul_nonneg (comb0 i) (by norm_num)) (by positivity) (by linarith) (hall i c hi).2 nr).le
  · intro hc25
    by_cases hb : ∃ b ∈ tb.2.2.map fun r => fp.rnd (cellBar 6 r), R c ≤ (⟨b, PUnit.bar, 0⟩ : Quantity).baseR fp
    · left; exact (hok (m2 hb)).trans (by rw [hc25])
    · right
      push Not at hb
      simp only [m1 hb, err_bind]

/-! ### 246 K -/

theorem dbl (x : ℝ) : FP.double.rnd x = binRnd 53 x := rfl

theorem dbl_int {k : ℤ} (hk : |k| < 2 ^ 53) : binRnd 53 (k : ℝ) = k := by
  have := binRnd_exact (p := 53) (k := k) (j := 0) hk
  simpa using this

theorem dbl_knot (n : ℤ) (h1 : -29 ≤ n) (h2 : n ≤ 38) :
    knot FP.double n = ((4805305618032230 + n * 17592186044416 : ℤ) : ℝ) / 2 ^ 44 := by
  have hne : PUnit.degC ≠ PUnit.base PUnit.degC.dim := by
    intro h
    have := congrArg PUnit.offset h
    norm_num [PUnit.degC, PUnit.base] at this
  have hof : PUnit.degC.offset ≠ 0 := by norm_num [PUnit.degC]
  have hn : |n| < 2 ^ 53 := by rw [abs_lt]; constructor <;> linarith
  have e1 : FP.double.conv PUnit.degC (PUnit.base PUnit.degC.dim) = 1 := by
    have : PUnit.degC.scale / (PUnit.base PUnit.degC.dim).scale = ((1 : ℤ) : ℝ) := by simp [PUnit.degC, PUnit.base]
    simp only [FP.double, this]
    rw [dbl_int (by norm_num)]; norm_num
  have e2 : FP.double.rnd PUnit.degC.offset = ((4805305618032230 : ℤ) : ℝ) * 2 ^ (-44 : ℤ) := by
    rw [dbl]
    apply binRnd_eq (by norm_num) (by norm_num)
    norm_num [PUnit.degC, abs_lt]
  simp only [knot, baseR]
  rw [if_neg hne, if_neg hof, e1, e2, dbl (n : ℝ), dbl_int hn, mul_one, dbl (n : ℝ), dbl_int hn, dbl]
  have e3 : (n : ℝ) + ((4805305618032230 : ℤ) : ℝ) * 2 ^ (-44 : ℤ) =
      ((4805305618032230 + n * 17592186044416 : ℤ) : ℝ) * 2 ^ (-44 : ℤ) := by
    push_cast; norm_num; ring
  rw [e3, binRnd_exact]
  · norm_num [div_eq_mul_inv]
  · rw [abs_lt]; constructor <;> linarith

theorem dbl_rate : rate FP.double 413.7 = 41370000 := by
  have hne : PUnit.bar ≠ PUnit.base PUnit.bar.dim := by
    intro h
    have := congrArg PUnit.scale h
    simp [PUnit.bar, PUnit.base] at this
  have ho : PUnit.bar.offset = 0 := rfl
  have e1 : FP.double.conv PUnit.bar (PUnit.base PUnit.bar.dim) = 100000 := by
    have : PUnit.bar.scale / (PUnit.base PUnit.bar.dim).scale = ((100000 : ℤ) : ℝ) := by simp [PUnit.bar, PUnit.base]
    simp only [FP.double, this]
    rw [dbl_int (by norm_num)]; norm_num
  have e2 : FP.double.rnd 413.7 = ((7277887366574899 : ℤ) : ℝ) * 2 ^ (-44 : ℤ) := by
    rw [dbl]
    apply binRnd_eq (by norm_num) (by norm_num)
    norm_num [abs_lt]
  simp only [rate, baseR]
  rw [if_neg hne, if_pos ho, e1, e2, dbl,
    binRnd_eq (k := 5552587407360000) (j := -27) (by norm_num) (by norm_num) (by norm_num [abs_lt])]
  norm_num

/-- The rating computed at 246 K between two points rated 413.7 bar each is above 413.7 bar. -/
theorem dbl_seg : segR FP.double 246 (knot FP.double (-29 : ℤ), rate FP.double 413.7)
    (knot FP.double (38 : ℤ), rate FP.double 413.7) = 5552587407360001 / 2 ^ 27 := by
  rw [dbl_knot (-29) (by norm_num) (by norm_num), dbl_knot 38 (by norm_num) (by norm_num), dbl_rate]
  simp only [segR, dbl]
  have e1 : binRnd 53 (((4805305618032230 + 38 * 17592186044416 : ℤ) : ℝ) / 2 ^ 44 -
      ((4805305618032230 + -29 * 17592186044416 : ℤ) : ℝ) / 2 ^ 44) = 67 := by
    rw [show ((4805305618032230 + 38 * 17592186044416 : ℤ) : ℝ) / 2 ^ 44 -
      ((4805305618032230 + -29 * 17592186044416 : ℤ) : ℝ) / 2 ^ 44 = ((67 : ℤ) : ℝ) by norm_num,
      dbl_int (by norm_num)]
    norm_num
  have e2 : binRnd 53 (1 / 67) = ((8603891825424231 : ℤ) : ℝ) * 2 ^ (-59 : ℤ) := by
    apply binRnd_eq (by norm_num) (by norm_num)
    norm_num [abs_lt]
  have e3 : binRnd 53 (((4805305618032230 + 38 * 17592186044416 : ℤ) : ℝ) / 2 ^ 44 - 246) =
      ((4805305618032230 + 38 * 17592186044416 - 246 * 17592186044416 : ℤ) : ℝ) * 2 ^ (-44 : ℤ) := by
    rw [show ((4805305618032230 + 38 * 17592186044416 : ℤ) : ℝ) / 2 ^ 44 - 246 =
      ((4805305618032230 + 38 * 17592186044416 - 246 * 17592186044416 : ℤ) : ℝ) * 2 ^ (-44 : ℤ) by norm_num,
      binRnd_exact (by norm_num)]
  have e4 : binRnd 53 (246 - ((4805305618032230 + -29 * 17592186044416 : ℤ) : ℝ) / 2 ^ 44) =
      ((246 * 17592186044416 - (4805305618032230 + -29 * 17592186044416) : ℤ) : ℝ) * 2 ^ (-44 : ℤ) := by
    rw [show 246 - ((4805305618032230 + -29 * 17592186044416 : ℤ) : ℝ) / 2 ^ 44 =
      ((246 * 17592186044416 - (4805305618032230 + -29 * 17592186044416) : ℤ) : ℝ) * 2 ^ (-44 : ℤ) by norm_num,
      binRnd_exact (by norm_num)]
  rw [e1, e2, e3, e4]
  rw [binRnd_eq (k := 8758493006662320) (j := -53) (x := ((8603891825424231 : ℤ) : ℝ) * 2 ^ (-59 : ℤ) *
      (((4805305618032230 + 38 * 17592186044416 - 246 * 17592186044416 : ℤ) : ℝ) * 2 ^ (-44 : ℤ)))
      (by norm_num) (by norm_num) (by norm_num [abs_lt]),
    binRnd_eq (k := 7958599938517511) (j := -58) (x := ((8603891825424231 : ℤ) : ℝ) * 2 ^ (-59 : ℤ) *
      (((246 * 17592186044416 - (4805305618032230 + -29 * 17592186044416) : ℤ) : ℝ) * 2 ^ (-44 : ℤ)))
      (by norm_num) (by norm_num) (by norm_num [abs_lt]),
    binRnd_eq (k := 5399269695365730) (j := -27) (x := 41370000 * (((8758493006662320 : ℤ) : ℝ) * 2 ^ (-53 : ℤ)))
      (by norm_num) (by norm_num) (by norm_num [abs_lt]),
    binRnd_eq (k := 4906166783816657) (j := -32) (x := 41370000 * (((7958599938517511 : ℤ) : ℝ) * 2 ^ (-58 : ℤ)))
      (by norm_num) (by norm_num) (by norm_num [abs_lt]),
    binRnd_eq (k := 5552587407360001) (j := -27) (by norm_num) (by norm_num) (by norm_num [abs_lt])]
  norm_num

/-- The full C113 says: the rating returned by `get_max_pressure` is accepted by `get_class` at the same temperature.
It is false in double precision: for a class 2500 flange of type 304 at 246 K (-27.15 degC) `get_max_pressure` returns
the float next above 413.7 bar, and `get_class` rejects it with ValueError.  (In exact arithmetic it holds:
`C43_rating_selects_class`.) -/
theorem C113_violated (u reg : Registry) (r : ℕ) :
    ∃ q, getMaxPressureR FP.double u "2500" (.quantity ⟨246, PUnit.kelvin, r⟩) (.str "304") = .ok q ∧
      41370000 < q.mag ∧ q.unit = PUnit.pascal ∧
      getClassR FP.double u reg (.quantity q) (.quantity ⟨246, PUnit.kelvin, r⟩) (.str "304") =
        .error (.valueError "Pressure out of range.") := by
  have M := FP.double_monotone
  set tb : String × List String × List (Int × List (Option Nat)) := ("2.1", Data.group21Cols, Data.group21Rows) with htb
  have ht : IsTable "304" tb := ⟨List.mem_cons_self, ("304", "2.1", 200, 78, 28), by decide, rfl, rfl⟩
  have hi : tb.2.1[6]? = some "2500" := rfl
  have hk : (⟨246, PUnit.kelvin, u.id⟩ : Quantity).baseR FP.double = 246 := by
    have : PUnit.kelvin = PUnit.base PUnit.kelvin.dim := rfl
    simp only [baseR]; rw [if_pos this]
  obtain ⟨r0, r1, rest, erows, c0, c1, g0, g1⟩ : ∃ r0 r1 rest, tb.2.2 = r0 :: r1 :: rest ∧ cellBar 6 r0 = 413.7 ∧
      cellBar 6 r1 = 413.7 ∧ r0.1 = -29 ∧ r1.1 = 38 := by
    refine ⟨_, _, _, rfl, ?_, ?_, rfl, rfl⟩ <;> norm_num [cellBar]
  have k0 : knot FP.double ((-29 : ℤ) : ℝ) < 246 := by
    rw [dbl_knot (-29) (by norm_num) (by norm_num)]; norm_num
  have k1 : 246 < knot FP.double ((38 : ℤ) : ℝ) := by
    rw [dbl_knot 38 (by norm_num) (by norm_num)]; norm_num
  have hr : checkRangeR FP.double ⟨246, PUnit.kelvin, u.id⟩
      (seriesMin ((roundFrame FP.double (frameOf tb.2)).rows.map (·.1)))
      (seriesMax ((roundFrame FP.double (frameOf tb.2)).rows.map (·.1))) PUnit.degC u.id "Temperature out of range." =
      .ok () := by
    rcases tempRangeR M ht.1 (q := ⟨246, PUnit.kelvin, u.id⟩) (r := u.id) (msg := "Temperature out of range.") rfl rfl with
      ⟨h, -⟩ | ⟨-, h | h⟩
    · exact h
    · have := h r0 (by rw [erows]; simp)
      rw [hk, g0] at this; linarith
    · have := h r1 (by rw [erows]; simp)
      rw [hk, g1] at this; linarith
  have hint : interpolateR FP.double 246 (curveSIR FP.double (roundFrame FP.double (frameOf tb.2)) "2500") =
      5552587407360001 / 2 ^ 27 := by
    have hinc := inc_knots FP.double_accurate (by norm_num) ht.1
    have h2 : (tb.2.2.map fun r => (knot FP.double r.1, rate FP.double (cellBar 6 r))).Pairwise
        (fun a b => a.1 ≤ b.1) := by
      rw [List.pairwise_map]; exact hinc.imp fun h => h.le
    have h3 : curveSIR FP.double (roundFrame FP.double (frameOf tb.2)) "2500" =
        tb.2.2.map fun r => (knot FP.double r.1, rate FP.double (cellBar 6 r)) := by
      rw [curveSIR_eq ht.1 hi, curveOf, List.map_map]; rfl
    rw [h3, interpolateR, sortPts, List.Pairwise.insertionSort_eq h2, erows]
    simp only [List.map_cons, slinearR, g0, g1, c0, c1]
    rw [if_pos (.inl k1), if_neg (k0.trans k1).ne, dbl_seg]
  refine ⟨⟨5552587407360001 / 2 ^ 27, PUnit.pascal, r⟩, ?_, by norm_num, rfl, ?_⟩
  · rw [getMaxPressureR_eval ht hi (q := ⟨246, PUnit.kelvin, u.id⟩) rfl, hr, ok_bind, hk, hint]
    rfl
  · have hpb : (⟨5552587407360001 / 2 ^ 27, PUnit.pascal, reg.id⟩ : Quantity).baseR FP.double =
        5552587407360001 / 2 ^ 27 := by
      have : PUnit.pascal = PUnit.base PUnit.pascal.dim := rfl
      simp only [baseR]; rw [if_pos this]
    have hk' : (⟨246, PUnit.kelvin, reg.id⟩ : Quantity).baseR FP.double = 246 := hk
    rw [getClassR_eval ht (q := ⟨5552587407360001 / 2 ^ 27, PUnit.pascal, reg.id⟩) (w := ⟨246, PUnit.kelvin, reg.id⟩)
      rfl rfl rfl rfl (by rw [hpb]; norm_num) (by rw [hk']; norm_num)]
    have hne : (tb.2.2.map fun r => FP.double.rnd (cellBar 6 r)) ≠ [] := by rw [erows]; simp
    have hmax : ∀ r ∈ tb.2.2, cellBar 6 r ≤ 413.7 := by
      have key : ∀ r ∈ tb.2.2, (r.2[6]?).join.getD 0 ≤ 4137 := by decide +kernel
      intro r hr
      have : (((r.2[6]?).join.getD 0 : ℕ) : ℝ) ≤ 4137 := by exact_mod_cast key r hr
      simp only [cellBar]; linarith
    have := (checkMaxPressureR_pascal M hne (5552587407360001 / 2 ^ 27) u.id).1 (by
      intro b hb
      obtain ⟨r, hr, rfl⟩ := List.mem_map.mp hb
      have h1 : rate FP.double (cellBar 6 r) ≤ rate FP.double 413.7 :=
        baseR_mono M rfl (M.mono _ _ (hmax r hr))
      rw [dbl_rate] at h1
      refine lt_of_le_of_lt h1 (by norm_num))
    simp only [this, err_bind]

/-- 400 bar at 20 degC, type 304, in double precision: a class is found. -/
example (u reg : Registry) : ∃ c, getClassR FP.double u reg (.quantity ⟨400, PUnit.bar, 1⟩)
    (.quantity ⟨20, PUnit.degC, 2⟩) (.str "304") = .ok c := by
  have hc : IsCurve "304" "2500" (curveOf 6 Data.group21Rows) :=
    ⟨("304", "2.1", 200, 78, 28), by decide, rfl, _, List.mem_cons_self, rfl, 6, rfl, rfl⟩
  have e : curveOf 6 Data.group21Rows = (-29, 413.7) :: (38, 413.7) :: curveOf 6 (Data.group21Rows.drop 2) := by
    norm_num [curveOf, Data.group21Rows, cellBar]
  refine C112_class_found (p := 400) (t := 20) FP.double_accurate FP.double_monotone (by norm_num)
    ⟨rfl, by norm_num [PUnit.bar]⟩ ⟨rfl, by norm_num [PUnit.degC]⟩ (v := PUnit.bar) (w := PUnit.degC) rfl rfl rfl
    (by norm_num [PUnit.degC]) (by norm_num [PUnit.degC]) (by norm_num) hc
    ⟨(-29, 413.7), by rw [e]; simp, by norm_num [shift]⟩ ⟨(38, 413.7), by rw [e]; simp, by norm_num [shift]⟩ ?_
  intro t' r ht' ho
  have hs : shift ((1 / 2) ^ 53) 1 ≤ 1 := by norm_num [shift]
  have ht' := abs_le.mp (ht'.trans hs)
  have ho' : On (curveOf 6 Data.group21Rows) t' 413.7 :=
    ⟨[], _, _, _, e, by simp only; linarith [ht'.1], by simp only; linarith [ht'.2], by norm_num⟩
  rw [ho.unique hc.facts.1 ho']
  norm_num

/-- The hypotheses of the proved part are met: class 900 at 400 degC in double precision. -/
example (u reg : Registry) : ∃ q, getMaxPressureR FP.double u "900" (.quantity ⟨400, PUnit.degC, 0⟩) (.str "304") = .ok q ∧
    getClassR FP.double u reg (.quantity q) (.quantity ⟨400, PUnit.degC, 0⟩) (.str "304") = .ok "900" := by
  have hc : IsCurve "304" "900" (curveOf 4 Data.group21Rows) :=
    ⟨("304", "2.1", 200, 78, 28), by decide, rfl, _, List.mem_cons_self, rfl, 4, rfl, rfl⟩
  have hx : IsDegC u (.quantity ⟨400, PUnit.degC, 0⟩) 400 := ⟨rfl, by norm_num [PUnit.degC]⟩
  have ho : On (curveOf 4 Data.group21Rows) 400 85.3 := by
    refine ⟨curveOf 4 (Data.group21Rows.take 11), (400, 85.3), (425, 84), curveOf 4 (Data.group21Rows.drop 13),
      ?_, by norm_num, by norm_num, by norm_num⟩
    norm_num [curveOf, Data.group21Rows, cellBar]
  obtain ⟨q, hq⟩ := (C112_range_degC Tube.double_ints hc hx rfl).1 ⟨_, ho⟩
  exact ⟨q, hq, (C113_partial FP.double_accurate FP.double_monotone (by norm_num) hc hx (w := PUnit.degC) rfl rfl
    (by norm_num [PUnit.degC]) (by norm_num [PUnit.degC]) (by norm_num) (by norm_num) hq).1 (by decide)⟩

end Flange
end Pypbomb
