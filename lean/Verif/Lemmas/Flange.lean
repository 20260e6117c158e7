import Verif.Lemmas.Pint
import Verif.Lemmas.Numpy
import Verif.Lemmas.Table
import Verif.Model.Flange

namespace Pypbomb.Flange
open Quantity

/-! ### Specification vocabulary -/

/-- The three published rating tables: group, classes, rows. -/
def ratingTables : List (String × List String × List (Int × List (Option Nat))) :=
  [("2.1", Data.group21Cols, Data.group21Rows), ("2.2", Data.group22Cols, Data.group22Rows),
   ("2.3", Data.group23Cols, Data.group23Rows)]

/-- Rating in bar in column `i` of a table row; an empty cell counts as 0. -/
noncomputable def cellBar (i : ℕ) (r : Int × List (Option Nat)) : ℝ :=
  (((r.2[i]?).join.getD 0 : ℕ) : ℝ) / 10

/-- `curve` is the list of (degC, bar) entries of column `cls` of the rating table for the material's
group. -/
def IsCurve (material cls : String) (curve : List (ℝ × ℝ)) : Prop :=
  ∃ row ∈ Data.materialRows, row.1 = material ∧ ∃ tb ∈ ratingTables, tb.1 = row.2.1 ∧
    ∃ i : ℕ, tb.2.1[i]? = some cls ∧ curve = tb.2.2.map fun r => ((r.1 : ℝ), cellBar i r)

/-- `p` lies on the piecewise linear interpolation of the curve at `t`. -/
def On (curve : List (ℝ × ℝ)) (t p : ℝ) : Prop :=
  ∃ pre a b suf, curve = pre ++ a :: b :: suf ∧ a.1 ≤ t ∧ t ≤ b.1 ∧
    p = a.2 + (b.2 - a.2) * ((t - a.1) / (b.1 - a.1))

/-- `x` is a temperature of `t` degrees Celsius, in any temperature unit. -/
def IsDegC (reg : Registry) (x : QIn) (t : ℝ) : Prop :=
  Denotes reg x Dim.temperature (t + 27315 / 100)

/-- `x` is a pressure of `p` bar, in any pressure unit. -/
def IsBar (reg : Registry) (x : QIn) (p : ℝ) : Prop := Denotes reg x Dim.pressure (p * 100000)

/-- The flange classes and their numbers. -/
def classes : List (String × ℕ) :=
  [("150", 150), ("300", 300), ("400", 400), ("600", 600), ("900", 900), ("1500", 1500),
   ("2500", 2500)]

/-! ### Sorting and interpolation -/

/-- Abscissae never decrease. -/
def Asc : List (ℝ × ℝ) → Prop
  | a :: b :: l => a.1 ≤ b.1 ∧ Asc (b :: l)
  | _ => True

theorem Asc.tail {a : ℝ × ℝ} {l : List (ℝ × ℝ)} (h : Asc (a :: l)) : Asc l := by
  cases l with
  | nil => trivial
  | cons b l => exact h.2

theorem _root_.Pypbomb.Inc.asc {l : List (ℝ × ℝ)} (h : Inc l) : Asc l := by
  induction l with
  | nil => trivial
  | cons a l ih =>
    cases l with
    | nil => trivial
    | cons b l => exact ⟨h.1.le, ih h.2⟩

theorem Asc.head_le {a b : ℝ × ℝ} {pre l : List (ℝ × ℝ)} (h : Asc (a :: (pre ++ b :: l))) :
    a.1 ≤ b.1 := by
  induction pre generalizing a with
  | nil => exact h.1
  | cons c pre ih => exact h.1.trans (ih h.2)

theorem Asc.head_le_mem {a b : ℝ × ℝ} {l : List (ℝ × ℝ)} (h : Asc (a :: l)) (hb : b ∈ l) :
    a.1 ≤ b.1 := by
  obtain ⟨pre, suf, rfl⟩ := List.append_of_mem hb
  exact h.head_le

theorem Asc.pairwise {l : List (ℝ × ℝ)} (h : Asc l) : l.Pairwise (fun a b => a.1 ≤ b.1) := by
  induction l with
  | nil => exact .nil
  | cons a l ih => exact .cons (fun b hb => h.head_le_mem hb) (ih h.tail)

theorem _root_.Pypbomb.Inc.head_lt_mem {a b : ℝ × ℝ} {l : List (ℝ × ℝ)} (h : Inc (a :: l)) (hb : b ∈ l) :
    a.1 < b.1 := by
  induction l generalizing a with
  | nil => simp at hb
  | cons c l ih =>
    rcases List.mem_cons.mp hb with rfl | hb
    · exact h.1
    · exact h.1.trans (ih h.2 hb)

/-- Value on a segment that ends strictly above `x`. -/
theorem slinear_seg {x : ℝ} {a b : ℝ × ℝ} (pre : List (ℝ × ℝ)) {suf : List (ℝ × ℝ)}
    (h : Asc (pre ++ a :: b :: suf)) (h1 : a.1 ≤ x) (h2 : x < b.1) :
    slinear x (pre ++ a :: b :: suf) = a.2 + (b.2 - a.2) / (b.1 - a.1) * (x - a.1) := by
  induction pre with
  | nil =>
    obtain ⟨a1, a2⟩ := a
    obtain ⟨b1, b2⟩ := b
    simp only [List.nil_append, slinear]
    have h1 : a1 ≤ x := h1
    have h2 : x < b1 := h2
    rw [if_pos (Or.inl h2), if_neg (h1.trans_lt h2).ne]
  | cons c pre ih =>
    have ih := ih h.tail
    obtain ⟨c1, c2⟩ := c
    cases hp : pre ++ a :: b :: suf with
    | nil => simp at hp
    | cons d l =>
      obtain ⟨d1, d2⟩ := d
      rw [hp] at ih
      rw [List.cons_append, hp]
      have hd : d1 ≤ x := by
        cases pre with
        | nil => simp only [List.nil_append, List.cons.injEq] at hp; rw [hp.1] at h1; exact h1
        | cons e pre =>
          simp only [List.cons_append, List.cons.injEq] at hp
          have h' : Asc ((d1, d2) :: (pre ++ a :: (b :: suf))) := by
            rw [← hp.1]; exact h.tail
          exact h'.head_le.trans h1
      have hl : l ≠ [] := by
        rintro rfl
        have := congrArg List.length hp
        simp at this
        omega
      rw [slinear, if_neg (by rw [not_or]; exact ⟨not_lt.mpr hd, hl⟩)]
      exact ih

/-- On increasing abscissae the right end point may be included. -/
theorem slinear_mid {x : ℝ} {a b : ℝ × ℝ} (pre : List (ℝ × ℝ)) {suf : List (ℝ × ℝ)}
    (h : Inc (pre ++ a :: b :: suf)) (h1 : a.1 ≤ x) (h2 : x ≤ b.1) :
    slinear x (pre ++ a :: b :: suf) = a.2 + (b.2 - a.2) / (b.1 - a.1) * (x - a.1) := by
  rcases lt_or_eq_of_le h2 with h2 | rfl
  · exact slinear_seg pre h.asc h1 h2
  · have hab : a.1 < b.1 := by
      clear h1 h2
      induction pre with
      | nil => exact h.1
      | cons c pre ih => exact ih h.tail
    have e : a.2 + (b.2 - a.2) / (b.1 - a.1) * (b.1 - a.1) = b.2 := by
      rw [div_mul_cancel₀ _ (by linarith)]; ring
    rw [e]
    cases suf with
    | nil =>
      clear h1 h2 e
      induction pre with
      | nil =>
        obtain ⟨a1, a2⟩ := a
        obtain ⟨b1, b2⟩ := b
        simp only [List.nil_append, slinear]
        have hab : a1 < b1 := hab
        rw [if_pos (Or.inr trivial), if_neg hab.ne, div_mul_cancel₀ _ (by linarith)]; ring
      | cons c pre ih =>
        have ih := ih h.tail
        have hi := h
        obtain ⟨c1, c2⟩ := c
        cases hp : pre ++ a :: [b] with
        | nil => simp at hp
        | cons d l =>
          obtain ⟨d1, d2⟩ := d
          rw [hp] at ih
          rw [List.cons_append, hp]
          have hl : l ≠ [] := by
            rintro rfl
            have := congrArg List.length hp
            simp at this
          have hd : d1 ≤ b.1 := by
            rw [List.cons_append, hp] at hi
            have hb : b ∈ (d1, d2) :: l := by rw [← hp]; simp
            rcases List.mem_cons.mp hb with rfl | hb
            · exact le_rfl
            · exact (Inc.head_lt_mem (Inc.tail hi) hb).le
          rw [slinear, if_neg (by rw [not_or]; exact ⟨not_lt.mpr hd, hl⟩)]
          exact ih
    | cons c suf =>
      have hbc : b.1 < c.1 := by
        clear h1 h2 e hab
        induction pre with
        | nil => exact h.2.1
        | cons c pre ih => exact ih h.tail
      have := slinear_seg (x := b.1) (a := b) (b := c) (pre ++ [a]) (suf := suf)
        (by simpa using h.asc) le_rfl hbc
      simpa using this

theorem interpolate_asc {x : ℝ} {l : List (ℝ × ℝ)} (h : Asc l) : interpolate x l = slinear x l := by
  unfold interpolate sortPts
  rw [List.Pairwise.insertionSort_eq]
  exact h.pairwise

/-! ### The specification `On` -/

theorem On.eq_npInterp {c : List (ℝ × ℝ)} {t p : ℝ} (h : Inc c) (ho : On c t p) :
    p = npInterp t c := by
  obtain ⟨pre, a, b, suf, rfl, h1, h2, rfl⟩ := ho
  rw [npInterp_mid pre h h1 h2]

theorem On.unique {c : List (ℝ × ℝ)} {t p p' : ℝ} (h : Inc c) (ho : On c t p) (ho' : On c t p') :
    p = p' := (ho.eq_npInterp h).trans (ho'.eq_npInterp h).symm

theorem On.exists {c : List (ℝ × ℝ)} {t : ℝ} {a b : ℝ × ℝ} (h : Inc c) (h2 : 2 ≤ c.length)
    (ha : a ∈ c) (hb : b ∈ c) (h1 : a.1 ≤ t) (ht : t ≤ b.1) : ∃ p, On c t p := by
  induction c generalizing a with
  | nil => simp at h2
  | cons x l ih =>
    cases l with
    | nil => simp at h2
    | cons y l =>
      have hxt : x.1 ≤ t := by
        rcases List.mem_cons.mp ha with rfl | ha
        · exact h1
        · exact (Inc.head_lt_mem h ha).le.trans h1
      by_cases hy : t ≤ y.1
      · exact ⟨_, [], x, y, l, rfl, hxt, hy, rfl⟩
      · have hy := not_le.mp hy
        have hl : 2 ≤ (y :: l).length := by
          cases l with
          | nil =>
            exfalso
            rcases List.mem_cons.mp hb with rfl | hb
            · have := h.1; linarith
            · simp only [List.mem_singleton] at hb; subst hb; linarith
          | cons => simp
        have hb' : b ∈ y :: l := by
          rcases List.mem_cons.mp hb with rfl | hb
          · have := h.1; linarith
          · exact hb
        obtain ⟨p, pre, a', b', suf, e, k1, k2, k3⟩ :=
          ih h.2 hl (a := y) (by simp) hb' hy.le
        exact ⟨p, x :: pre, a', b', suf, by rw [e]; rfl, k1, k2, k3⟩

theorem On.range {c : List (ℝ × ℝ)} {t p : ℝ} (ho : On c t p) :
    (∃ a ∈ c, a.1 ≤ t) ∧ ∃ b ∈ c, t ≤ b.1 := by
  obtain ⟨pre, a, b, suf, rfl, h1, h2, -⟩ := ho
  exact ⟨⟨a, by simp, h1⟩, ⟨b, by simp, h2⟩⟩

/-- Strictly larger ordinates give a strictly larger interpolant. -/
theorem npInterp_strict {l m : List (ℝ × ℝ)} (h : Inc l) (hne : l ≠ [])
    (hlm : List.Forall₂ (fun a b => a.1 = b.1 ∧ a.2 < b.2) l m) (x : ℝ) :
    npInterp x l < npInterp x m := by
  induction hlm with
  | nil => exact absurd rfl hne
  | cons hab hl ih =>
    rename_i a b l m
    obtain ⟨a1, a2⟩ := a
    obtain ⟨b1, b2⟩ := b
    obtain ⟨rfl, h2⟩ : a1 = b1 ∧ a2 < b2 := hab
    have ih := ih h.tail
    cases hl with
    | nil => exact h2
    | cons hcd hl =>
      rename_i c d l m _
      obtain ⟨c1, c2⟩ := c
      obtain ⟨d1, d2⟩ := d
      obtain ⟨rfl, h4⟩ : c1 = d1 ∧ c2 < d2 := hcd
      have hac : a1 < c1 := h.1
      simp only [npInterp]
      split
      · exact h2
      · split
        · rename_i hx1 hx2
          have ht0 : 0 ≤ (x - a1) / (c1 - a1) := div_nonneg (by linarith) (by linarith)
          have ht1 : 0 < 1 - (x - a1) / (c1 - a1) := by
            rw [sub_pos, div_lt_one (by linarith)]; linarith
          have e1 : (c2 - a2) / (c1 - a1) * (x - a1) + a2 =
              (1 - (x - a1) / (c1 - a1)) * a2 + (x - a1) / (c1 - a1) * c2 := by ring
          have e2 : (d2 - b2) / (c1 - a1) * (x - a1) + b2 =
              (1 - (x - a1) / (c1 - a1)) * b2 + (x - a1) / (c1 - a1) * d2 := by ring
          rw [e1, e2]
          have := mul_lt_mul_of_pos_left h2 ht1
          have := mul_le_mul_of_nonneg_left h4.le ht0
          linarith
        · exact ih (by simp)

/-! ### Loading the shipped tables -/

/-- A shipped table as a loaded frame. -/
noncomputable def frameOf (tb : List String × List (Int × List (Option Nat))) : Frame :=
  ⟨tb.1, tb.2.map fun r => ((r.1 : ℝ), r.2.map fun c => ((c.getD 0 : ℕ) : ℝ) / 10)⟩

theorem loadFrame_shipped (cols : List String) (rows : List (Int × List (Option Nat))) :
    loadFrame ⟨cols, rawRows rows⟩ = .ok (frameOf (cols, rows)) := by
  have e : ((rawRows rows).map fun r => (r.1.getD 0, r.2.map (·.getD 0))) =
      rows.map fun r => ((r.1 : ℝ), r.2.map fun c => ((c.getD 0 : ℕ) : ℝ) / 10) := by
    unfold rawRows
    rw [List.map_map]
    apply List.map_congr_left
    intro r _
    simp only [Function.comp, Option.getD_some, List.map_map, Prod.mk.injEq, true_and]
    apply List.map_congr_left
    intro c _
    cases c <;> simp
  unfold loadFrame
  simp only [e]
  rw [if_pos]
  · rfl
  · intro r hr p hp
    obtain ⟨x, -, rfl⟩ := List.mem_map.mp hr
    obtain ⟨c, -, rfl⟩ := List.mem_map.mp hp
    positivity

/-- All three shipped files load. -/
theorem load_shipped : loadAll shipped = .ok (ratingTables.map fun tb => (tb.1, frameOf tb.2)) := by
  have h1 : fileName "2.1" = "ASME_B16_5_flange_ratings_group_2_1.csv" := by decide +kernel
  have h2 : fileName "2.2" = "ASME_B16_5_flange_ratings_group_2_2.csv" := by decide +kernel
  have h3 : fileName "2.3" = "ASME_B16_5_flange_ratings_group_2_3.csv" := by decide +kernel
  have n1 : "ASME_B16_5_flange_ratings_group_2_2.csv" ≠ "ASME_B16_5_flange_ratings_group_2_1.csv" := by
    decide +kernel
  have n2 : "ASME_B16_5_flange_ratings_group_2_3.csv" ≠ "ASME_B16_5_flange_ratings_group_2_1.csv" := by
    decide +kernel
  have n3 : "ASME_B16_5_flange_ratings_group_2_3.csv" ≠ "ASME_B16_5_flange_ratings_group_2_2.csv" := by
    decide +kernel
  have s1 : shipped (fileName "2.1") = some ⟨Data.group21Cols, rawRows Data.group21Rows⟩ := by
    rw [h1, shipped, if_pos rfl]
  have s2 : shipped (fileName "2.2") = some ⟨Data.group22Cols, rawRows Data.group22Rows⟩ := by
    rw [h2, shipped, if_neg n1, if_pos rfl]
  have s3 : shipped (fileName "2.3") = some ⟨Data.group23Cols, rawRows Data.group23Rows⟩ := by
    rw [h3, shipped, if_neg n2, if_neg n3, if_pos rfl]
  simp only [loadAll, forEach, loadGroup, s1, s2, s3,
    loadFrame_shipped, ok_bind, ratingTables, List.map_cons, List.map_nil]

theorem withLimits_eq {α : Type} (f : List (String × Frame) → Py α) :
    withLimits f = f (ratingTables.map fun tb => (tb.1, frameOf tb.2)) := by
  unfold withLimits
  rw [load_shipped]; rfl

/-! ### Columns -/

theorem table_cols : ∀ tb ∈ ratingTables, tb.2.1 = classes.map (·.1) := by decide +kernel
theorem table_len : ∀ tb ∈ ratingTables, ∀ r ∈ tb.2.2, r.2.length = 7 := by decide +kernel
theorem classes_nodup : (classes.map (·.1)).Nodup := by decide +kernel

theorem lookup_cell {tb : String × List String × List (Int × List (Option Nat))}
    (ht : tb ∈ ratingTables) {i : ℕ} {cls : String} (hi : tb.2.1[i]? = some cls)
    {r : Int × List (Option Nat)} (hr : r ∈ tb.2.2) :
    (tb.2.1.zip (r.2.map fun c => ((c.getD 0 : ℕ) : ℝ) / 10)).lookup cls = some (cellBar i r) := by
  have hlt : i < 7 := by
    have := (List.getElem?_eq_some_iff.mp hi).1
    rw [table_cols tb ht] at this
    exact this
  have hl := table_len tb ht r hr
  obtain ⟨c, hc⟩ : ∃ c, r.2[i]? = some c := by
    rw [← hl] at hlt
    exact ⟨_, List.getElem?_eq_getElem hlt⟩
  apply zip_lookup _ hi
  · rw [List.getElem?_map, hc, cellBar, hc]; rfl
  · rw [table_cols tb ht]; exact classes_nodup

theorem filterMap_eq_map' {α β : Type} {f : α → Option β} {g : α → β} {l : List α}
    (h : ∀ x ∈ l, f x = some (g x)) : l.filterMap f = l.map g := by
  rw [← List.filterMap_eq_map]
  exact List.filterMap_congr h

/-- The (degC, bar) points of column `i`. -/
noncomputable def curveOf (i : ℕ) (rows : List (Int × List (Option Nat))) : List (ℝ × ℝ) :=
  rows.map fun r => ((r.1 : ℝ), cellBar i r)

/-- (degC, bar) to (K, Pa). -/
noncomputable def si (a : ℝ × ℝ) : ℝ × ℝ := (a.1 + 27315 / 100, a.2 * 100000)

theorem curveSI_eq {tb : String × List String × List (Int × List (Option Nat))}
    (ht : tb ∈ ratingTables) {i : ℕ} {cls : String} (hi : tb.2.1[i]? = some cls) :
    curveSI (frameOf tb.2) cls = (curveOf i tb.2.2).map si := by
  unfold curveSI frameOf curveOf
  rw [List.map_map]
  simp only [List.filterMap_map]
  apply filterMap_eq_map'
  intro r hr
  simp only [Function.comp, lookup_cell ht hi hr, Option.map_some, Quantity.phys, PUnit.degC,
    PUnit.bar, si]
  congr 2 <;> ring

theorem colBar_eq {tb : String × List String × List (Int × List (Option Nat))}
    (ht : tb ∈ ratingTables) {i : ℕ} {cls : String} (hi : tb.2.1[i]? = some cls) :
    colBar (frameOf tb.2) cls = (curveOf i tb.2.2).map (·.2) := by
  unfold colBar frameOf curveOf
  rw [List.map_map]
  simp only [List.filterMap_map]
  apply filterMap_eq_map'
  intro r hr
  simp only [Function.comp, lookup_cell ht hi hr]

theorem temps_eq (tb : String × List String × List (Int × List (Option Nat))) (i : ℕ) :
    (frameOf tb.2).rows.map (·.1) = (curveOf i tb.2.2).map (·.1) := by
  unfold frameOf curveOf
  simp only [List.map_map, Function.comp_def]

theorem foldl_max_spec (l : List ℝ) (a : ℝ) :
    (l.foldl max a = a ∨ l.foldl max a ∈ l) ∧ a ≤ l.foldl max a ∧ ∀ x ∈ l, x ≤ l.foldl max a := by
  induction l generalizing a with
  | nil => simp
  | cons b l ih =>
    obtain ⟨h1, h2, h3⟩ := ih (max a b)
    simp only [List.foldl_cons]
    refine ⟨?_, (le_max_left _ _).trans h2, ?_⟩
    · rcases h1 with h1 | h1
      · rw [h1]
        rcases max_choice a b with h | h <;> rw [h]
        · exact Or.inl rfl
        · exact Or.inr (by simp)
      · exact Or.inr (List.mem_cons_of_mem _ h1)
    · intro x hx
      rcases List.mem_cons.mp hx with rfl | hx
      · exact (le_max_right _ _).trans h2
      · exact h3 x hx

theorem foldl_min_spec (l : List ℝ) (a : ℝ) :
    (l.foldl min a = a ∨ l.foldl min a ∈ l) ∧ l.foldl min a ≤ a ∧ ∀ x ∈ l, l.foldl min a ≤ x := by
  induction l generalizing a with
  | nil => simp
  | cons b l ih =>
    obtain ⟨h1, h2, h3⟩ := ih (min a b)
    simp only [List.foldl_cons]
    refine ⟨?_, h2.trans (min_le_left _ _), ?_⟩
    · rcases h1 with h1 | h1
      · rw [h1]
        rcases min_choice a b with h | h <;> rw [h]
        · exact Or.inl rfl
        · exact Or.inr (by simp)
      · exact Or.inr (List.mem_cons_of_mem _ h1)
    · intro x hx
      rcases List.mem_cons.mp hx with rfl | hx
      · exact h2.trans (min_le_right _ _)
      · exact h3 x hx

theorem seriesMax_spec {l : List ℝ} (h : l ≠ []) : seriesMax l ∈ l ∧ ∀ x ∈ l, x ≤ seriesMax l := by
  obtain ⟨a, l, rfl⟩ := List.exists_cons_of_ne_nil h
  obtain ⟨h1, h2, h3⟩ := foldl_max_spec (a :: l) a
  refine ⟨?_, h3⟩
  rcases h1 with h1 | h1
  · show (a :: l).foldl max a ∈ a :: l
    rw [h1]; simp
  · exact h1

theorem seriesMin_spec {l : List ℝ} (h : l ≠ []) : seriesMin l ∈ l ∧ ∀ x ∈ l, seriesMin l ≤ x := by
  obtain ⟨a, l, rfl⟩ := List.exists_cons_of_ne_nil h
  obtain ⟨h1, h2, h3⟩ := foldl_min_spec (a :: l) a
  refine ⟨?_, h3⟩
  rcases h1 with h1 | h1
  · show (a :: l).foldl min a ∈ a :: l
    rw [h1]; simp
  · exact h1

/-! ### Shape of every rating curve -/

/-- Column `i` as integers (degC, 0.1 bar). -/
def intCurve (i : ℕ) (rows : List (Int × List (Option Nat))) : List (Int × Nat) :=
  rows.map fun r => (r.1, (r.2[i]?).join.getD 0)

/-- (degC, 0.1 bar) to (degC, bar). -/
noncomputable def toReal (a : Int × Nat) : ℝ × ℝ := ((a.1 : ℝ), (a.2 : ℝ) / 10)

theorem curveOf_eq (i : ℕ) (rows : List (Int × List (Option Nat))) :
    curveOf i rows = (intCurve i rows).map toReal := by
  unfold curveOf intCurve
  rw [List.map_map]; rfl

/-- Temperatures increase, ratings do not. -/
def chk : List (Int × Nat) → Bool
  | a :: b :: l => decide (a.1 < b.1) && decide (b.2 ≤ a.2) && chk (b :: l)
  | _ => true

/-- Ratings strictly decrease. -/
def chkStrict : List (Int × Nat) → Bool
  | a :: b :: l => decide (b.2 < a.2) && chkStrict (b :: l)
  | _ => true

theorem of_chk {l : List (Int × Nat)} (h : chk l = true) :
    Inc (l.map toReal) ∧ Dec (l.map toReal) := by
  induction l with
  | nil => exact ⟨trivial, trivial⟩
  | cons a l ih =>
    cases l with
    | nil => exact ⟨trivial, trivial⟩
    | cons b l =>
      simp only [chk, Bool.and_eq_true, decide_eq_true_eq] at h
      obtain ⟨⟨h1, h2⟩, h3⟩ := h
      obtain ⟨i1, i2⟩ := ih h3
      have h1 : (a.1 : ℝ) < b.1 := by exact_mod_cast h1
      have h2 : (b.2 : ℝ) ≤ a.2 := by exact_mod_cast h2
      exact ⟨⟨h1, i1⟩, ⟨by simp only [toReal]; linarith, i2⟩⟩

theorem tables_chk : ∀ tb ∈ ratingTables, ∀ i < 7, chk (intCurve i tb.2.2) = true := by
  decide +kernel

/-- The rated part of a curve below the two cold rows. -/
def rated (l : List (Int × Nat)) : List (Int × Nat) := (l.drop 2).takeWhile fun a => 0 < a.2
/-- The unrated part. -/
def unrated (l : List (Int × Nat)) : List (Int × Nat) := (l.drop 2).dropWhile fun a => 0 < a.2

theorem tables_shape : ∀ tb ∈ ratingTables, ∀ i < 7,
    (∃ m ∈ (intCurve i tb.2.2).head?.map (·.2), intCurve i tb.2.2 =
      (-29, m) :: (38, m) :: (rated (intCurve i tb.2.2) ++ unrated (intCurve i tb.2.2)) ∧
      chkStrict ((38, m) :: rated (intCurve i tb.2.2)) = true ∧
      (rated (intCurve i tb.2.2)).head?.map (·.1) = some 50 ∧
      (∀ a ∈ unrated (intCurve i tb.2.2), a.2 = 0) ∧
      ((intCurve i tb.2.2).map Prod.swap).insertionSort (fun a b => a.1 ≤ b.1) =
        (unrated (intCurve i tb.2.2)).map Prod.swap ++
          ((rated (intCurve i tb.2.2)).reverse.map Prod.swap ++ [(m, -29), (m, 38)])) := by
  decide +kernel

/-! ### Evaluation -/

/-- The package's rating tables as loaded. -/
noncomputable abbrev lims : List (String × Frame) := ratingTables.map fun tb => (tb.1, frameOf tb.2)

/-- `tb` is the rating table of the material. -/
def IsTable (material : String) (tb : String × List String × List (Int × List (Option Nat))) : Prop :=
  tb ∈ ratingTables ∧ ∃ row ∈ Data.materialRows, row.1 = material ∧ tb.1 = row.2.1

theorem table_exists {material : String} (h : ∃ row ∈ Data.materialRows, row.1 = material) :
    ∃ tb, IsTable material tb := by
  have key : ∀ row ∈ Data.materialRows, ∃ tb ∈ ratingTables, tb.1 = row.2.1 := by decide +kernel
  obtain ⟨row, hr, rfl⟩ := h
  obtain ⟨tb, ht, he⟩ := key row hr
  exact ⟨tb, ht, row, hr, rfl, he⟩

theorem table_unique {material : String} {tb tb' : String × List String × List (Int × List (Option Nat))}
    (h : IsTable material tb) (h' : IsTable material tb') : tb = tb' := by
  obtain ⟨ht, row, hr, rfl, he⟩ := h
  obtain ⟨ht', row', hr', e', he'⟩ := h'
  have k1 : ∀ r ∈ Data.materialRows, ∀ r' ∈ Data.materialRows, r'.1 = r.1 → r'.2.1 = r.2.1 := by
    decide +kernel
  have k2 : ∀ a ∈ ratingTables, ∀ b ∈ ratingTables, a.1 = b.1 → a = b := by decide +kernel
  exact k2 tb ht tb' ht' (by rw [he, he', k1 row hr row' hr' e'])

theorem lookupGroup_eq {material : String}
    {tb : String × List String × List (Int × List (Option Nat))} (h : IsTable material tb) :
    lookupGroup lims (.str material) = .ok (tb.1, frameOf tb.2) := by
  obtain ⟨ht, row, hr, rfl, he⟩ := h
  have key : ∀ r ∈ Data.materialRows,
      Data.materialRows.filter (fun x => decide (x.1 = r.1)) = [r] := by decide +kernel
  have hf := key row hr
  have h1 : checkMaterial (.str row.1) = .ok () := by
    simp only [checkMaterial]
    rw [if_pos]
    exact List.mem_map.mpr ⟨row, hr, rfl⟩
  have h2 : Tube.materialRow (.str row.1) = .ok row := by
    unfold Tube.materialRow
    simp only at hf ⊢
    rw [hf]
  have h3 : lims.lookup row.2.1 = some (frameOf tb.2) := by
    rw [lookup_iff_mem]
    · exact List.mem_map.mpr ⟨tb, ht, by rw [he]⟩
    · have : (ratingTables.map (·.1)).Nodup := by decide +kernel
      simp only [lims, List.map_map]
      exact this
  simp only [lookupGroup, groupFrame, h1, h2, h3, ok_bind]
  rw [he]

theorem IsCurve.table {material cls : String} {curve : List (ℝ × ℝ)}
    (h : IsCurve material cls curve) :
    ∃ tb, IsTable material tb ∧ ∃ i < 7, tb.2.1[i]? = some cls ∧ curve = curveOf i tb.2.2 := by
  obtain ⟨row, hr, e, tb, ht, he, i, hi, hc⟩ := h
  refine ⟨tb, ⟨ht, row, hr, e, he⟩, i, ?_, hi, hc⟩
  have := (List.getElem?_eq_some_iff.mp hi).1
  rw [table_cols tb ht] at this
  exact this

theorem IsTable.curve {material : String} {tb : String × List String × List (Int × List (Option Nat))}
    (h : IsTable material tb) {i : ℕ} {cls : String} (hi : tb.2.1[i]? = some cls) :
    IsCurve material cls (curveOf i tb.2.2) := by
  obtain ⟨ht, row, hr, e, he⟩ := h
  exact ⟨row, hr, e, tb, ht, he, i, hi, rfl⟩

theorem table_rows : ∀ tb ∈ ratingTables, 2 ≤ tb.2.2.length := by decide +kernel

theorem curve_facts {tb : String × List String × List (Int × List (Option Nat))}
    (ht : tb ∈ ratingTables) {i : ℕ} (hi : i < 7) :
    Inc (curveOf i tb.2.2) ∧ Dec (curveOf i tb.2.2) ∧ 2 ≤ (curveOf i tb.2.2).length := by
  rw [curveOf_eq]
  obtain ⟨h1, h2⟩ := of_chk (tables_chk tb ht i hi)
  refine ⟨h1, h2, ?_⟩
  simpa [intCurve] using table_rows tb ht

theorem IsCurve.facts {material cls : String} {curve : List (ℝ × ℝ)}
    (h : IsCurve material cls curve) : Inc curve ∧ Dec curve ∧ 2 ≤ curve.length := by
  obtain ⟨tb, ht, i, hi, -, rfl⟩ := h.table
  exact curve_facts ht.1 hi

theorem inc_si {l : List (ℝ × ℝ)} (h : Inc l) : Inc (l.map si) := by
  induction l with
  | nil => trivial
  | cons a l ih =>
    cases l with
    | nil => trivial
    | cons b l => exact ⟨by have := h.1; simp only [si]; linarith, ih h.2⟩

/-- Interpolating the SI points is interpolating the table. -/
theorem interpolate_si {curve : List (ℝ × ℝ)} {t p : ℝ} (h : Inc curve) (ho : On curve t p) :
    interpolate (t + 27315 / 100) (curve.map si) = p * 100000 := by
  have h' := inc_si h
  rw [interpolate_asc h'.asc]
  obtain ⟨pre, a, b, suf, rfl, h1, h2, rfl⟩ := ho
  simp only [List.map_append, List.map_cons] at h' ⊢
  rw [slinear_mid _ h' (by simp only [si]; linarith) (by simp only [si]; linarith)]
  simp only [si]
  have e1 : b.1 + 27315 / 100 - (a.1 + 27315 / 100) = b.1 - a.1 := by ring
  rw [e1]
  ring

theorem checkRange_ok {q : Quantity} {lo hi : ℝ} {u : PUnit} {r : ℕ} {msg : String}
    (hr : q.reg = r) (hd : q.unit.dim = u.dim) (h1 : lo * u.scale + u.offset ≤ q.phys)
    (h2 : q.phys ≤ hi * u.scale + u.offset) : checkRange q lo hi u r msg = .ok () := by
  have a1 : ¬ q.phys < (⟨lo, u, r⟩ : Quantity).phys := not_lt.mpr h1
  have a2 : ¬ (⟨hi, u, r⟩ : Quantity).phys < q.phys := not_lt.mpr h2
  simp [checkRange, Quantity.lt, sameReg, hr, hd, a1, a2]

theorem checkRange_error {q : Quantity} {lo hi : ℝ} {u : PUnit} {r : ℕ} {msg : String}
    (hr : q.reg = r) (hd : q.unit.dim = u.dim)
    (h : q.phys < lo * u.scale + u.offset ∨ hi * u.scale + u.offset < q.phys) :
    checkRange q lo hi u r msg = .error (.valueError msg) := by
  have h : q.phys < (⟨lo, u, r⟩ : Quantity).phys ∨ (⟨hi, u, r⟩ : Quantity).phys < q.phys := h
  simp only [checkRange, Quantity.lt, sameReg, hr, hd, if_true, ok_bind]
  rw [if_pos]
  simpa using h

theorem checkRange_dim {q : Quantity} {lo hi : ℝ} {u : PUnit} {r : ℕ} {msg : String}
    (hr : q.reg = r) (hd : q.unit.dim ≠ u.dim) :
    checkRange q lo hi u r msg = .error .dimensionality := by
  simp only [checkRange, Quantity.lt, sameReg, hr, hd, if_true, ok_bind, if_false, err_bind]

/-- The temperature range check, in terms of the table. -/
theorem tempRange {tb : String × List String × List (Int × List (Option Nat))}
    (ht : tb ∈ ratingTables) {i : ℕ} (hi : i < 7) {q : Quantity} {t : ℝ} {r : ℕ} {msg : String}
    (hr : q.reg = r) (hd : q.unit.dim = Dim.temperature) (hq : q.phys = t + 27315 / 100) :
    ((∃ p, On (curveOf i tb.2.2) t p) →
      checkRange q (seriesMin ((frameOf tb.2).rows.map (·.1)))
        (seriesMax ((frameOf tb.2).rows.map (·.1))) PUnit.degC r msg = .ok ()) ∧
    ((¬ ∃ p, On (curveOf i tb.2.2) t p) →
      checkRange q (seriesMin ((frameOf tb.2).rows.map (·.1)))
        (seriesMax ((frameOf tb.2).rows.map (·.1))) PUnit.degC r msg = .error (.valueError msg)) := by
  obtain ⟨hinc, -, hlen⟩ := curve_facts ht hi
  rw [temps_eq tb i]
  have hne : (curveOf i tb.2.2).map (·.1) ≠ [] := by
    intro h
    rw [List.map_eq_nil_iff] at h
    rw [h] at hlen; simp at hlen
  obtain ⟨m1, m2⟩ := seriesMin_spec hne
  obtain ⟨M1, M2⟩ := seriesMax_spec hne
  constructor
  · rintro ⟨p, hp⟩
    obtain ⟨⟨a, ha, h1⟩, b, hb, h2⟩ := hp.range
    have := m2 _ (List.mem_map.mpr ⟨a, ha, rfl⟩)
    have := M2 _ (List.mem_map.mpr ⟨b, hb, rfl⟩)
    apply checkRange_ok hr hd <;> simp only [PUnit.degC, hq] <;> linarith
  · intro hno
    apply checkRange_error hr hd
    by_contra hc
    rw [not_or, not_lt, not_lt] at hc
    simp only [PUnit.degC, hq] at hc
    obtain ⟨a, ha, ea⟩ := List.mem_map.mp m1
    obtain ⟨b, hb, eb⟩ := List.mem_map.mp M1
    exact hno (On.exists hinc hlen ha hb (by rw [ea]; linarith [hc.1]) (by rw [eb]; linarith [hc.2]))

theorem class_ne_temperature {tb : String × List String × List (Int × List (Option Nat))}
    (ht : tb ∈ ratingTables) {i : ℕ} {cls : String} (hi : tb.2.1[i]? = some cls) :
    cls ∈ tb.2.1 ∧ cls ≠ "Temperature" := by
  have h1 := List.mem_of_getElem? hi
  refine ⟨h1, ?_⟩
  rintro rfl
  rw [table_cols tb ht] at h1
  exact absurd h1 (by decide)

/-- `get_max_pressure` on a listed material and class. -/
theorem getMaxPressure_eval {u : Registry} {material cls : String} {curve : List (ℝ × ℝ)} {x : QIn}
    {t : ℝ} (hc : IsCurve material cls curve) (hx : IsDegC u x t) :
    (∀ p, On curve t p →
      getMaxPressure u cls x (.str material) = .ok ⟨p * 100000, PUnit.pascal, outReg u x⟩) ∧
    ((¬ ∃ p, On curve t p) →
      getMaxPressure u cls x (.str material) = .error (.valueError "Temperature out of range.")) := by
  obtain ⟨tb, ht, i, hi7, hi, rfl⟩ := hc.table
  obtain ⟨q, e, hd, hp, hr⟩ := parse_any hx
  obtain ⟨hm, hne⟩ := class_ne_temperature ht.1 hi
  have hck : checkClass cls (tb.1, frameOf tb.2) = .ok () := by
    unfold checkClass
    rw [if_pos]
    exact List.mem_cons_of_mem _ hm
  obtain ⟨t1, t2⟩ := tempRange (msg := "Temperature out of range.") ht.1 hi7 hr hd hp
  constructor
  · intro p ho
    simp only [getMaxPressure, withLimits_eq, lookupGroup_eq ht, ok_bind, hck, e, t1 ⟨p, ho⟩,
      if_neg hne]
    rw [curveSI_eq ht.1 hi, hp, interpolate_si (curve_facts ht.1 hi7).1 ho]
  · intro hno
    simp only [getMaxPressure, withLimits_eq, lookupGroup_eq ht, ok_bind, hck, e, t2 hno, err_bind]

theorem checkQ_pass {q : Quantity} {kind : String} {dk : Dim} {v : ℝ}
    (hk : supportedDims.lookup kind = some dk) (hd : q.unit.dim = dk) (hv : q.phys = v) (h : 0 ≤ v) :
    checkQ q kind true = .ok () := by
  rw [checkQ_eq q kind true hk, if_neg, if_pos hd]
  rintro ⟨-, h2⟩
  rw [hv] at h2
  exact absurd h (not_le.mpr h2)

theorem maxKey_eq : maxKey (classes.map (·.1)) "0" = .ok "2500" := by decide +kernel

/-- `get_class` on a listed material and non-negative inputs. -/
theorem getClass_eval {u reg : Registry} {material : String} {x y : QIn} {p t : ℝ}
    {tb : String × List String × List (Int × List (Option Nat))} (ht : IsTable material tb)
    (hx : IsBar reg x p) (hy : IsDegC reg y t) (p0 : 0 ≤ p) (t0 : 0 ≤ t + 27315 / 100) :
    ((∀ b ∈ curveOf 6 tb.2.2, b.2 < p) →
      getClass u reg x y (.str material) = .error (.valueError "Pressure out of range.")) ∧
    ((∃ b ∈ curveOf 6 tb.2.2, p ≤ b.2) → (¬ ∃ r, On (curveOf 6 tb.2.2) t r) →
      getClass u reg x y (.str material) = .error (.valueError "Temperature out of range.")) ∧
    ((∃ b ∈ curveOf 6 tb.2.2, p ≤ b.2) → (∃ r, On (curveOf 6 tb.2.2) t r) →
      getClass u reg x y (.str material) =
        firstClass (frameOf tb.2) (t + 27315 / 100) (p * 100000)) := by
  obtain ⟨q, e, hd, hp, hr⟩ := parse_any hx
  obtain ⟨w, e', hd', hp', hr'⟩ := parse_any hy
  have c1 : checkQ q "pressure" true = .ok () :=
    checkQ_pass lookup_pressure hd hp (by positivity)
  have c2 : checkQ w "temperature" true = .ok () :=
    checkQ_pass lookup_temperature hd' hp' t0
  have hcols := table_cols tb ht.1
  have hkey : maxKey (frameOf tb.2).cols "0" = .ok "2500" := by
    show maxKey tb.2.1 "0" = _
    rw [hcols]; exact maxKey_eq
  have hi : tb.2.1[6]? = some "2500" := by rw [hcols]; rfl
  have hcol := colBar_eq ht.1 hi
  have hne : (curveOf 6 tb.2.2).map (·.2) ≠ [] := by
    intro h
    rw [List.map_eq_nil_iff] at h
    have := (curve_facts ht.1 (i := 6) (by norm_num)).2.2
    rw [h] at this; simp at this
  obtain ⟨M1, M2⟩ := seriesMax_spec hne
  have hb : ∀ m : ℝ, (⟨m, PUnit.bar, u.id⟩ : Quantity).phys = m * 100000 := by
    intro m; simp [Quantity.phys, PUnit.bar]
  have hq2 : (⟨q.mag, q.unit, u.id⟩ : Quantity).phys = p * 100000 := hp
  have hw2 : (⟨w.mag, w.unit, u.id⟩ : Quantity).phys = t + 27315 / 100 := hp'
  have hmax : checkMaxPressure ⟨q.mag, q.unit, u.id⟩ (seriesMax ((curveOf 6 tb.2.2).map (·.2))) u.id =
      if seriesMax ((curveOf 6 tb.2.2).map (·.2)) < p then
        .error (.valueError "Pressure out of range.") else .ok () := by
    have hdim : PUnit.bar.dim = q.unit.dim := by rw [hd]; rfl
    simp only [checkMaxPressure, Quantity.lt, sameReg, if_true, ok_bind, hdim, hb, hq2,
      decide_eq_true_eq]
    have : (seriesMax ((curveOf 6 tb.2.2).map (·.2)) * 100000 < p * 100000) ↔
        seriesMax ((curveOf 6 tb.2.2).map (·.2)) < p := by
      constructor <;> intro h <;> linarith
    simp only [this]
  obtain ⟨t1, t2⟩ := tempRange (q := ⟨w.mag, w.unit, u.id⟩) (r := u.id)
    (msg := "Temperature out of range.") ht.1 (i := 6) (by norm_num) rfl hd' hw2
  have hstart : getClass u reg x y (.str material) = (do
      checkMaxPressure ⟨q.mag, q.unit, u.id⟩ (seriesMax ((curveOf 6 tb.2.2).map (·.2))) u.id
      checkRange ⟨w.mag, w.unit, u.id⟩ (seriesMin ((frameOf tb.2).rows.map (·.1)))
        (seriesMax ((frameOf tb.2).rows.map (·.1))) PUnit.degC u.id "Temperature out of range."
      firstClass (frameOf tb.2) (t + 27315 / 100) (p * 100000)) := by
    have pq : parseQ (.quantity q) u = .ok ⟨q.mag, q.unit, u.id⟩ := rfl
    have pw : parseQ (.quantity w) u = .ok ⟨w.mag, w.unit, u.id⟩ := rfl
    simp only [getClass, withLimits_eq, e, e', ok_bind, c1, c2, pq, pw, lookupGroup_eq ht, hkey, hcol,
      hq2, hw2]
  rw [hstart, hmax]
  refine ⟨?_, ?_, ?_⟩
  · intro h
    obtain ⟨b, hb1, hb2⟩ := List.mem_map.mp M1
    rw [if_pos (by rw [← hb2]; exact h b hb1)]
    rfl
  · rintro ⟨b, hb1, hb2⟩ hno
    have := M2 b.2 (List.mem_map.mpr ⟨b, hb1, rfl⟩)
    rw [if_neg (by linarith)]
    simp only [ok_bind, t2 hno, err_bind]
  · rintro ⟨b, hb1, hb2⟩ hyes
    have := M2 b.2 (List.mem_map.mpr ⟨b, hb1, rfl⟩)
    rw [if_neg (by linarith)]
    simp only [ok_bind, t1 hyes]

/-- The classes are listed by increasing number, and every table uses this order. -/
theorem classes_split {l1 l2 : List String} {c c' : String} {n n' : ℕ}
    (h : classes.map (·.1) = l1 ++ c :: l2) (hc : (c, n) ∈ classes) (hc' : (c', n') ∈ classes) :
    (n' < n → c' ∈ l1) ∧ (c' ∈ l1 → n' < n) := by
  have hs : classes.Pairwise (fun a b => a.2 < b.2) := by decide +kernel
  obtain ⟨L1, L2, e, rfl, h2⟩ := List.map_eq_append_iff.mp h
  obtain ⟨a, L3, rfl, ha, rfl⟩ := List.map_eq_cons_iff.mp h2
  have hu : ∀ a ∈ classes, ∀ b ∈ classes, a.1 = b.1 → a = b := by decide +kernel
  have hac : a = (c, n) := hu _ (by rw [e]; simp) _ hc ha
  subst hac
  rw [e] at hs hc'
  have hs' := List.pairwise_append.mp hs
  constructor
  · intro hlt
    rcases List.mem_append.mp hc' with h | h
    · exact List.mem_map.mpr ⟨_, h, rfl⟩
    · rcases List.mem_cons.mp h with h | h
      · rw [Prod.mk.injEq] at h; omega
      · have := (List.pairwise_cons.mp hs'.2.1).1 _ h
        simp only at this
        omega
  · intro hm
    obtain ⟨b, hb, hb'⟩ := List.mem_map.mp hm
    have : b = (c', n') := hu _ (by rw [e]; simp [hb]) _ (by rw [e]; exact hc') hb'
    subst this
    exact hs'.2.2 _ hb (c, n) (by simp)

/-- `firstClass` in terms of the rating curves. -/
theorem firstClass_ok {tb : String × List String × List (Int × List (Option Nat))}
    (ht : tb ∈ ratingTables) {t p : ℝ} {c : String}
    (h : firstClass (frameOf tb.2) t p = .ok c) :
    ∃ l1 l2, classes.map (·.1) = l1 ++ c :: l2 ∧ p ≤ interpolate t (curveSI (frameOf tb.2) c) ∧
      ∀ c' ∈ l1, interpolate t (curveSI (frameOf tb.2) c') < p := by
  unfold firstClass at h
  split at h
  · simp at h
  · rename_i c' rest he
    simp only [Except.ok.injEq] at h
    subst h
    have hcols : (frameOf tb.2).cols = classes.map (·.1) := table_cols tb ht
    rw [hcols, List.filter_eq_cons_iff] at he
    obtain ⟨l1, l2, e1, e2, e3, e4⟩ := he
    exact ⟨l1, l2, e1, by simpa using e3, fun c' hc' => by simpa using e2 c' hc'⟩

theorem firstClass_of {tb : String × List String × List (Int × List (Option Nat))}
    (ht : tb ∈ ratingTables) {t p : ℝ} {c : String} {l1 l2 : List String}
    (h : classes.map (·.1) = l1 ++ c :: l2) (h1 : p ≤ interpolate t (curveSI (frameOf tb.2) c))
    (h2 : ∀ c' ∈ l1, interpolate t (curveSI (frameOf tb.2) c') < p) :
    firstClass (frameOf tb.2) t p = .ok c := by
  have hcols : (frameOf tb.2).cols = classes.map (·.1) := table_cols tb ht
  have hf : (frameOf tb.2).cols.filter
      (fun c => decide (p ≤ interpolate t (curveSI (frameOf tb.2) c))) =
      c :: l2.filter (fun c => decide (p ≤ interpolate t (curveSI (frameOf tb.2) c))) := by
    rw [hcols, List.filter_eq_cons_iff]
    exact ⟨l1, l2, h, fun c' hc' => by simpa using h2 c' hc', by simpa using h1, rfl⟩
  unfold firstClass
  rw [hf]

theorem firstClass_none {tb : String × List String × List (Int × List (Option Nat))}
    (ht : tb ∈ ratingTables) {t p : ℝ}
    (h : ∀ c ∈ classes.map (·.1), interpolate t (curveSI (frameOf tb.2) c) < p) :
    firstClass (frameOf tb.2) t p = .error .indexError := by
  have hcols : (frameOf tb.2).cols = classes.map (·.1) := table_cols tb ht
  have hf : (frameOf tb.2).cols.filter
      (fun c => decide (p ≤ interpolate t (curveSI (frameOf tb.2) c))) = [] := by
    rw [hcols, List.filter_eq_nil_iff]
    intro c hc
    simpa using h c hc
  unfold firstClass
  rw [hf]

/-- Every table has the same temperatures in all columns. -/
theorem On.column {tb : String × List String × List (Int × List (Option Nat))}
    (ht : tb ∈ ratingTables) {i j : ℕ} (hj : j < 7) {t p : ℝ}
    (h : On (curveOf i tb.2.2) t p) : ∃ r, On (curveOf j tb.2.2) t r := by
  obtain ⟨⟨a, ha, h1⟩, b, hb, h2⟩ := h.range
  obtain ⟨r, hr, rfl⟩ := List.mem_map.mp ha
  obtain ⟨s, hs, rfl⟩ := List.mem_map.mp hb
  obtain ⟨hinc, -, hlen⟩ := curve_facts ht hj
  exact On.exists hinc hlen (List.mem_map.mpr ⟨r, hr, rfl⟩) (List.mem_map.mpr ⟨s, hs, rfl⟩) h1 h2

/-- `get_max_temperature` on a listed material and class. -/
theorem getMaxTemperature_eval {u : Registry} {material cls : String} {curve : List (ℝ × ℝ)} {x : QIn}
    {p : ℝ} (hc : IsCurve material cls curve) (hx : IsBar u x p) :
    ((∃ a ∈ curve, a.2 ≤ p) → (∃ b ∈ curve, p ≤ b.2) →
      getMaxTemperature u cls x (.str material) =
        .ok ⟨interpolate (p * 100000) ((curve.map si).map Prod.swap), PUnit.kelvin, outReg u x⟩) ∧
    (((∀ a ∈ curve, p < a.2) ∨ ∀ a ∈ curve, a.2 < p) →
      getMaxTemperature u cls x (.str material) = .error (.valueError "Pressure out of range.")) := by
  obtain ⟨tb, ht, i, hi7, hi, rfl⟩ := hc.table
  obtain ⟨q, e, hd, hp, hr⟩ := parse_any hx
  obtain ⟨hm, hne⟩ := class_ne_temperature ht.1 hi
  have hck : checkClass cls (tb.1, frameOf tb.2) = .ok () := by
    unfold checkClass
    rw [if_pos]
    exact List.mem_cons_of_mem _ hm
  have hnil : (curveOf i tb.2.2).map (·.2) ≠ [] := by
    intro h
    rw [List.map_eq_nil_iff] at h
    have := (curve_facts ht.1 hi7).2.2
    rw [h] at this; simp at this
  obtain ⟨m1, m2⟩ := seriesMin_spec hnil
  obtain ⟨M1, M2⟩ := seriesMax_spec hnil
  have hd' : q.unit.dim = PUnit.bar.dim := hd
  simp only [getMaxTemperature, withLimits_eq, lookupGroup_eq ht, ok_bind, hck, e, if_neg hne,
    colBar_eq ht.1 hi, curveSI_eq ht.1 hi, hp]
  constructor
  · rintro ⟨a, ha, h1⟩ ⟨b, hb, h2⟩
    have := m2 _ (List.mem_map.mpr ⟨a, ha, rfl⟩)
    have := M2 _ (List.mem_map.mpr ⟨b, hb, rfl⟩)
    rw [checkRange_ok hr hd']
    · rfl
    · simp only [PUnit.bar, hp]; linarith
    · simp only [PUnit.bar, hp]; linarith
  · intro h
    rw [checkRange_error hr hd']
    · rfl
    · simp only [PUnit.bar, hp]
      rcases h with h | h
      · obtain ⟨a, ha, ea⟩ := List.mem_map.mp m1
        have := h a ha
        left; rw [← ea]; linarith
      · obtain ⟨a, ha, ea⟩ := List.mem_map.mp M1
        have := h a ha
        right; rw [← ea]; linarith

/-! ### The inverse curve -/

/-- Ordinates strictly decrease. -/
def SDec : List (ℝ × ℝ) → Prop
  | a :: b :: l => b.2 < a.2 ∧ SDec (b :: l)
  | _ => True

/-- A point of the exchanged SI curve: (Pa, K). -/
noncomputable def inv (a : ℝ × ℝ) : ℝ × ℝ := (a.2 * 100000, a.1 + 27315 / 100)

theorem sortPts_asc (l : List (ℝ × ℝ)) : Asc (sortPts l) := by
  classical
  have h : (sortPts l).Pairwise (fun a b => a.1 ≤ b.1) := by
    have i1 : Std.Total (fun a b : ℝ × ℝ => a.1 ≤ b.1) := ⟨fun a b => le_total a.1 b.1⟩
    have i2 : IsTrans (ℝ × ℝ) (fun a b : ℝ × ℝ => a.1 ≤ b.1) := ⟨fun a b c => le_trans⟩
    exact List.pairwise_insertionSort _ l
  generalize sortPts l = m at h
  induction m with
  | nil => trivial
  | cons a m ih =>
    cases m with
    | nil => trivial
    | cons b m =>
      exact ⟨(List.pairwise_cons.mp h).1 b (by simp), ih (List.pairwise_cons.mp h).2⟩

/-- The shape of a rating curve: equal cold ratings, a strictly decreasing rated part starting at 50
degC, then unrated rows; and its points sorted by pressure. -/
structure Shape (curve : List (ℝ × ℝ)) (m : ℝ) (D Z : List (ℝ × ℝ)) : Prop where
  eq : curve = (-29, m) :: (38, m) :: (D ++ Z)
  sdec : SDec ((-29, m) :: D)
  head : ∃ d D', D = d :: D' ∧ d.1 = 50
  pos : ∀ d ∈ D, 0 < d.2
  zero : ∀ z ∈ Z, z.2 = 0
  sorted : sortPts ((curve.map si).map Prod.swap) =
    Z.map inv ++ (((-29, m) :: D).reverse.map inv ++ [inv (38, m)])

theorem sdec_of_chk {m : ℕ} {a b : ℤ} {l : List (ℤ × ℕ)} (h : chkStrict ((a, m) :: l) = true) :
    SDec (((b : ℝ), (m : ℝ) / 10) :: l.map toReal) := by
  induction l generalizing m a b with
  | nil => trivial
  | cons c l ih =>
    simp only [chkStrict, Bool.and_eq_true, decide_eq_true_eq] at h
    obtain ⟨h1, h2⟩ := h
    obtain ⟨c1, c2⟩ := c
    have h1 : (c2 : ℝ) < m := by exact_mod_cast h1
    refine ⟨?_, ih (b := c1) h2⟩
    simp only [toReal]; linarith

/-- Sorting the exchanged SI points is sorting the table entries. -/
theorem sorted_int (cv : List (ℤ × ℕ)) :
    sortPts (((cv.map toReal).map si).map Prod.swap) =
      ((cv.map Prod.swap).insertionSort (fun a b : ℕ × ℤ => a.1 ≤ b.1)).map
        (fun a : ℕ × ℤ => inv (toReal a.swap)) := by
  classical
  have hs := List.map_insertionSort (r := fun a b : ℕ × ℤ => a.1 ≤ b.1)
    (s := fun a b : ℝ × ℝ => a.1 ≤ b.1) (fun a : ℕ × ℤ => inv (toReal a.swap)) (cv.map Prod.swap)
    (by
      intro a _ b _
      simp only [inv, toReal, Prod.fst_swap, Prod.snd_swap]
      rw [← Nat.cast_le (α := ℝ)]
      constructor <;> intro h <;> linarith)
  have e1 : ((cv.map toReal).map si).map Prod.swap =
      (cv.map Prod.swap).map (fun a : ℕ × ℤ => inv (toReal a.swap)) := by
    simp only [List.map_map]
    apply List.map_congr_left
    intro a _
    simp [si, inv, toReal]
  rw [e1]
  refine Eq.trans ?_ (hs.symm.trans rfl)
  unfold sortPts
  congr

theorem curve_shape {tb : String × List String × List (Int × List (Option Nat))}
    (ht : tb ∈ ratingTables) {i : ℕ} (hi : i < 7) :
    ∃ m D Z, Shape (curveOf i tb.2.2) m D Z := by
  obtain ⟨m, -, h1, h2, h3, h4, h5⟩ := tables_shape tb ht i hi
  rw [curveOf_eq]
  generalize intCurve i tb.2.2 = cv at *
  have hpos : ∀ d ∈ rated cv, 0 < d.2 := by
    intro d hd
    have := List.all_eq_true.mp (List.all_takeWhile (l := cv.drop 2) (p := fun a : ℤ × ℕ => decide (0 < a.2))) d hd
    simpa using this
  generalize rated cv = D at *
  generalize unrated cv = Z at *
  refine ⟨(m : ℝ) / 10, D.map toReal, Z.map toReal, ?_, ?_, ?_, ?_, ?_, ?_⟩
  · rw [h1]
    simp [toReal]
  · have := sdec_of_chk (b := -29) h2
    simpa using this
  · cases D with
    | nil => simp at h3
    | cons d D =>
      simp only [List.head?_cons, Option.map_some, Option.some.injEq] at h3
      exact ⟨toReal d, D.map toReal, rfl, by simp [toReal, h3]⟩
  · intro d hd
    obtain ⟨e, he, rfl⟩ := List.mem_map.mp hd
    have : (0 : ℝ) < e.2 := by exact_mod_cast hpos e he
    simp only [toReal]; positivity
  · intro d hd
    obtain ⟨e, he, rfl⟩ := List.mem_map.mp hd
    simp [toReal, h4 e he]
  · rw [sorted_int, h5]
    simp [inv, toReal, Function.comp_def, List.map_reverse]

/-- Value of the exchanged curve on the segment between two neighbouring rated rows (or the first rated
row and the -29 degC row). -/
theorem interpolate_inv {curve D Z : List (ℝ × ℝ)} {m x : ℝ} (h : Shape curve m D Z)
    {a b : ℝ × ℝ} {pre suf : List (ℝ × ℝ)} (hE : (-29, m) :: D = pre ++ a :: b :: suf)
    (h1 : b.2 ≤ x) (h2 : x < a.2) :
    interpolate (x * 100000) ((curve.map si).map Prod.swap) =
      b.1 + (a.1 - b.1) / (a.2 - b.2) * (x - b.2) + 27315 / 100 := by
  have hasc := sortPts_asc ((curve.map si).map Prod.swap)
  unfold interpolate
  rw [h.sorted, hE] at *
  have e : Z.map inv ++ ((pre ++ a :: b :: suf).reverse.map inv ++ [inv (38, m)]) =
      (Z.map inv ++ suf.reverse.map inv) ++ inv b :: inv a :: (pre.reverse.map inv ++ [inv (38, m)]) := by
    simp
  rw [e] at hasc ⊢
  rw [slinear_seg _ hasc (by simp only [inv]; linarith) (by simp only [inv]; linarith)]
  simp only [inv]
  have : a.2 - b.2 ≠ 0 := by
    have : b.2 < a.2 := h1.trans_lt h2
    linarith
  have e2 : a.2 * 100000 - b.2 * 100000 = (a.2 - b.2) * 100000 := by ring
  rw [e2]
  field_simp
  ring

/-- Every pressure from the lowest rated value up to (not including) the largest lies in a segment. -/
theorem sdec_segment {l : List (ℝ × ℝ)} {a : ℝ × ℝ} {x : ℝ} (h : SDec (a :: l)) (h1 : x < a.2)
    (h2 : ∃ b ∈ l, b.2 ≤ x) :
    ∃ pre c d suf, a :: l = pre ++ c :: d :: suf ∧ d.2 ≤ x ∧ x < c.2 := by
  induction l generalizing a with
  | nil => simp at h2
  | cons b l ih =>
    by_cases hb : b.2 ≤ x
    · exact ⟨[], a, b, l, rfl, hb, h1⟩
    · obtain ⟨e, he, hx⟩ := h2
      have he' : e ∈ l := by
        rcases List.mem_cons.mp he with rfl | h
        · exact absurd hx hb
        · exact h
      obtain ⟨pre, c, d, suf, h3, h4, h5⟩ := ih h.2 (not_le.mp hb) ⟨e, he', hx⟩
      exact ⟨a :: pre, c, d, suf, by rw [h3]; rfl, h4, h5⟩

theorem SDec.pair {l pre suf : List (ℝ × ℝ)} {a b : ℝ × ℝ} (h : SDec l)
    (he : l = pre ++ a :: b :: suf) : b.2 < a.2 := by
  subst he
  induction pre with
  | nil => exact h.1
  | cons c pre ih =>
    apply ih
    cases hp : pre ++ a :: b :: suf with
    | nil => trivial
    | cons d l => rw [List.cons_append, hp] at h; exact h.2

end Pypbomb.Flange
