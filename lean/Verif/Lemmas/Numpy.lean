/-
Facts about piecewise linear interpolation.
-/
import Verif.Model.Numpy
import Mathlib.Tactic.Linarith
import Mathlib.Tactic.Ring
import Mathlib.Tactic.FieldSimp
import Mathlib.Tactic.GCongr
import Mathlib.Tactic.Positivity

namespace Pypbomb

/-- Ordinates never increase. -/
def Dec : List (ℝ × ℝ) → Prop
  | a :: b :: l => b.2 ≤ a.2 ∧ Dec (b :: l)
  | _ => True

theorem Inc.tail {a : ℝ × ℝ} {l : List (ℝ × ℝ)} (h : Inc (a :: l)) : Inc l := by
  cases l with
  | nil => trivial
  | cons b l => exact h.2

theorem Dec.tail {a : ℝ × ℝ} {l : List (ℝ × ℝ)} (h : Dec (a :: l)) : Dec l := by
  cases l with
  | nil => trivial
  | cons b l => exact h.2

/-- Below the first point: constant. -/
theorem npInterp_left {x : ℝ} {a : ℝ × ℝ} {l : List (ℝ × ℝ)} (h : Inc (a :: l)) (hx : x ≤ a.1) :
    npInterp x (a :: l) = a.2 := by
  cases l with
  | nil => rfl
  | cons b l =>
    obtain ⟨a1, a2⟩ := a
    obtain ⟨b1, b2⟩ := b
    simp only [npInterp]
    split
    · rfl
    · have : x = a1 := le_antisymm hx (not_lt.mp ‹_›)
      have h1 : x < b1 := lt_of_le_of_lt hx h.1
      rw [if_pos h1, this]; simp

/-- On the segment between two consecutive points. -/
theorem npInterp_mid {x : ℝ} {a b : ℝ × ℝ} (pre : List (ℝ × ℝ)) {l : List (ℝ × ℝ)}
    (h : Inc (pre ++ a :: b :: l)) (h1 : a.1 ≤ x) (h2 : x ≤ b.1) :
    npInterp x (pre ++ a :: b :: l) = a.2 + (b.2 - a.2) * ((x - a.1) / (b.1 - a.1)) := by
  induction pre with
  | nil =>
    obtain ⟨a1, a2⟩ := a
    obtain ⟨b1, b2⟩ := b
    simp only [List.nil_append, npInterp] at *
    have hab : a1 < b1 := h.1
    rw [if_neg (not_lt.mpr h1)]
    rcases h2.lt_or_eq with h2 | h2
    · rw [if_pos h2]; ring
    · rw [if_neg (by simp [h2]), npInterp_left h.2 h2.le, h2, div_self (sub_ne_zero.mpr hab.ne')]
      ring
  | cons c pre ih =>
    have ih := ih h.tail
    cases pre with
    | nil =>
      obtain ⟨c1, c2⟩ := c
      obtain ⟨a1, a2⟩ := a
      have hca : c1 < a1 := h.1
      simp only [List.cons_append, List.nil_append] at ih ⊢
      rw [npInterp, if_neg (not_lt.mpr (hca.le.trans h1)), if_neg (not_lt.mpr h1)]
      exact ih
    | cons d pre =>
      obtain ⟨c1, c2⟩ := c
      obtain ⟨d1, d2⟩ := d
      have hcd : c1 < d1 := h.1
      have hda : d1 ≤ a.1 := by
        clear ih
        have hh := h.tail
        clear h
        have : ∀ (pre : List (ℝ × ℝ)) (d : ℝ × ℝ), Inc (d :: (pre ++ a :: b :: l)) → d.1 ≤ a.1 := by
          intro pre
          induction pre with
          | nil => intro d hd; exact hd.1.le
          | cons e pre ih => intro d hd; exact hd.1.le.trans (ih e hd.2)
        exact this pre (d1, d2) hh
      simp only [List.cons_append] at ih ⊢
      rw [npInterp, if_neg (not_lt.mpr (hcd.le.trans (hda.trans h1))),
        if_neg (not_lt.mpr (hda.trans h1))]
      exact ih

/-- Above the last point: constant. -/
theorem npInterp_right {x : ℝ} {b : ℝ × ℝ} (pre : List (ℝ × ℝ)) (h : Inc (pre ++ [b]))
    (hx : b.1 ≤ x) : npInterp x (pre ++ [b]) = b.2 := by
  induction pre with
  | nil => rfl
  | cons c pre ih =>
    have ih := ih h.tail
    have hc : c.1 ≤ x ∧ ∀ d l, pre ++ [b] = d :: l → d.1 ≤ x := by
      have : ∀ (pre : List (ℝ × ℝ)) (d : ℝ × ℝ), Inc (d :: (pre ++ [b])) → d.1 ≤ b.1 := by
        intro pre
        induction pre with
        | nil => intro d hd; exact hd.1.le
        | cons e pre ih => intro d hd; exact hd.1.le.trans (ih e hd.2)
      refine ⟨(this pre c h).trans hx, ?_⟩
      intro d l hd
      cases pre with
      | nil => simp only [List.nil_append, List.cons.injEq] at hd; rw [← hd.1]; exact hx
      | cons e pre =>
        simp only [List.cons_append, List.cons.injEq] at hd
        rw [← hd.1]
        exact (this pre e h.tail).trans hx
    cases hp : pre ++ [b] with
    | nil => simp at hp
    | cons d l =>
      obtain ⟨c1, c2⟩ := c
      obtain ⟨d1, d2⟩ := d
      rw [hp] at ih
      rw [List.cons_append, hp, npInterp, if_neg (not_lt.mpr hc.1), if_neg (not_lt.mpr (hc.2 _ _ hp))]
      exact ih

/-- At a tabulated abscissa the value is the tabulated one. -/
theorem npInterp_knot {a : ℝ × ℝ} (pre : List (ℝ × ℝ)) {l : List (ℝ × ℝ)} (h : Inc (pre ++ a :: l)) :
    npInterp a.1 (pre ++ a :: l) = a.2 := by
  cases l with
  | nil => exact npInterp_right pre h le_rfl
  | cons b l =>
    have hab : a.1 < b.1 := by
      have : Inc (a :: b :: l) := by
        induction pre with
        | nil => exact h
        | cons c pre ih => exact ih h.tail
      exact this.1
    rw [npInterp_mid pre h le_rfl hab.le]; simp

/-- The interpolant of non-increasing data is bounded by the first ordinate. -/
theorem npInterp_le_head {a : ℝ × ℝ} {l : List (ℝ × ℝ)} (h : Inc (a :: l)) (hd : Dec (a :: l)) (x : ℝ) :
    npInterp x (a :: l) ≤ a.2 := by
  induction l generalizing a with
  | nil => exact le_rfl
  | cons b l ih =>
    obtain ⟨a1, a2⟩ := a
    obtain ⟨b1, b2⟩ := b
    have hab : a1 < b1 := h.1
    have hba : b2 ≤ a2 := hd.1
    simp only [npInterp]
    split
    · exact le_rfl
    · split
      · have : (b2 - a2) / (b1 - a1) * (x - a1) ≤ 0 :=
          mul_nonpos_of_nonpos_of_nonneg (div_nonpos_of_nonpos_of_nonneg (by linarith) (by linarith))
            (by linarith)
        linarith
      · exact (ih h.2 hd.2).trans hba

/-- The interpolant of non-increasing data never increases. -/
theorem npInterp_antitone {l : List (ℝ × ℝ)} (h : Inc l) (hd : Dec l) :
    Antitone fun x => npInterp x l := by
  intro x y hxy
  show npInterp y l ≤ npInterp x l
  induction l with
  | nil => exact le_rfl
  | cons a l ih =>
    cases l with
    | nil => exact le_rfl
    | cons b l =>
      obtain ⟨a1, a2⟩ := a
      obtain ⟨b1, b2⟩ := b
      have hab : a1 < b1 := h.1
      have hba : b2 ≤ a2 := hd.1
      have ih := ih h.2 hd.2
      by_cases hx : x < a1
      · rw [npInterp_left (x := x) h hx.le]
        exact npInterp_le_head h hd y
      · by_cases hx1 : x < b1
        · have ex : npInterp x ((a1, a2) :: (b1, b2) :: l) =
              (b2 - a2) / (b1 - a1) * (x - a1) + a2 := by
            simp only [npInterp]; rw [if_neg hx, if_pos hx1]
          have hs : (b2 - a2) / (b1 - a1) ≤ 0 :=
            div_nonpos_of_nonpos_of_nonneg (by linarith) (by linarith)
          by_cases hy1 : y < b1
          · have ey : npInterp y ((a1, a2) :: (b1, b2) :: l) =
                (b2 - a2) / (b1 - a1) * (y - a1) + a2 := by
              simp only [npInterp]; rw [if_neg (by linarith), if_pos hy1]
            rw [ex, ey]
            have := mul_le_mul_of_nonpos_left (sub_le_sub_right hxy a1) hs
            linarith
          · have ey : npInterp y ((a1, a2) :: (b1, b2) :: l) = npInterp y ((b1, b2) :: l) := by
              simp only [npInterp]; rw [if_neg (by linarith), if_neg hy1]
            rw [ex, ey]
            have h1 := npInterp_le_head h.2 hd.2 y
            have h2 : (b2 - a2) / (b1 - a1) * (b1 - a1) = b2 - a2 :=
              div_mul_cancel₀ _ (by linarith)
            have h3 := mul_le_mul_of_nonpos_left (sub_le_sub_right hx1.le a1) hs
            simp only at h1
            linarith
        · have ex : npInterp x ((a1, a2) :: (b1, b2) :: l) = npInterp x ((b1, b2) :: l) := by
            simp only [npInterp]; rw [if_neg hx, if_neg hx1]
          have ey : npInterp y ((a1, a2) :: (b1, b2) :: l) = npInterp y ((b1, b2) :: l) := by
            simp only [npInterp]; rw [if_neg (by linarith), if_neg (by linarith)]
          rw [ex, ey]; exact ih

/-- Pointwise larger ordinates give a larger interpolant. -/
theorem npInterp_mono {l m : List (ℝ × ℝ)} (h : Inc l)
    (hlm : List.Forall₂ (fun a b => a.1 = b.1 ∧ a.2 ≤ b.2) l m) (x : ℝ) :
    npInterp x l ≤ npInterp x m := by
  induction hlm with
  | nil => exact le_rfl
  | cons hab hl ih =>
    rename_i a b l m
    obtain ⟨a1, a2⟩ := a
    obtain ⟨b1, b2⟩ := b
    obtain ⟨rfl, h2⟩ : a1 = b1 ∧ a2 ≤ b2 := hab
    have ih := ih h.tail
    cases hl with
    | nil => exact h2
    | cons hcd hl =>
      rename_i c d l m _
      obtain ⟨c1, c2⟩ := c
      obtain ⟨d1, d2⟩ := d
      obtain ⟨rfl, h4⟩ : c1 = d1 ∧ c2 ≤ d2 := hcd
      have hac : a1 < c1 := h.1
      simp only [npInterp]
      split
      · exact h2
      · split
        · have ht0 : 0 ≤ (x - a1) / (c1 - a1) := div_nonneg (by linarith) (by linarith)
          have ht1 : (x - a1) / (c1 - a1) ≤ 1 := by
            rw [div_le_one (by linarith)]; linarith
          have e1 : (c2 - a2) / (c1 - a1) * (x - a1) + a2 =
              (1 - (x - a1) / (c1 - a1)) * a2 + (x - a1) / (c1 - a1) * c2 := by ring
          have e2 : (d2 - b2) / (c1 - a1) * (x - a1) + b2 =
              (1 - (x - a1) / (c1 - a1)) * b2 + (x - a1) / (c1 - a1) * d2 := by ring
          rw [e1, e2]
          have := mul_le_mul_of_nonneg_left h2 (sub_nonneg.mpr ht1)
          have := mul_le_mul_of_nonneg_left h4 ht0
          linarith
        · exact ih

/-- The interpolant lies between the smallest and largest ordinate. -/
theorem npInterp_ge {l : List (ℝ × ℝ)} (h : Inc l) (hne : l ≠ []) {c : ℝ} (hc : ∀ p ∈ l, c ≤ p.2)
    (x : ℝ) : c ≤ npInterp x l := by
  have h1 : List.Forall₂ (fun a b : ℝ × ℝ => a.1 = b.1 ∧ a.2 ≤ b.2) (l.map fun p => (p.1, c)) l := by
    clear h hne
    induction l with
    | nil => exact .nil
    | cons a l ih =>
      exact .cons ⟨rfl, hc a (by simp)⟩ (ih fun p hp => hc p (by simp [hp]))
  have h2 : Inc (l.map fun p => (p.1, c)) := by
    clear hc h1 hne
    induction l with
    | nil => trivial
    | cons a l ih =>
      cases l with
      | nil => trivial
      | cons b l => exact ⟨h.1, ih h.2⟩
  have h3 : ∀ l : List (ℝ × ℝ), l ≠ [] → npInterp x (l.map fun p => (p.1, c)) = c := by
    intro l
    induction l with
    | nil => intro h; exact absurd rfl h
    | cons a l ih =>
      intro _
      cases l with
      | nil => rfl
      | cons b l =>
        simp only [List.map_cons, npInterp, sub_self, zero_div, zero_mul, zero_add]
        have := ih (by simp)
        simp only [List.map_cons] at this
        rw [this]; simp
  have := npInterp_mono h2 h1 x
  rwa [h3 l hne] at this

end Pypbomb
