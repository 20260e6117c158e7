/-
Lookups in tables given as a list of column names and rows of cells.
-/
import Mathlib.Data.List.Nodup

namespace Pypbomb

theorem lookup_zip {α : Type} {cols : List String} {vals : List α} {prop : String} {v : α}
    (h : (cols.zip vals).lookup prop = some v) :
    ∃ i : ℕ, cols[i]? = some prop ∧ vals[i]? = some v := by
  induction cols generalizing vals with
  | nil => simp at h
  | cons c cs ih =>
    cases vals with
    | nil => simp at h
    | cons x xs =>
      rw [List.zip_cons_cons, List.lookup_cons] at h
      cases hb : prop == c with
      | true =>
        rw [hb] at h
        exact ⟨0, by simp [beq_iff_eq.mp hb], by simpa using h⟩
      | false =>
        rw [hb] at h
        obtain ⟨i, h1, h2⟩ := ih h
        exact ⟨i + 1, by simpa using h1, by simpa using h2⟩

theorem zip_lookup {α : Type} {cols : List String} {vals : List α} {prop : String} {v : α} {i : ℕ}
    (hn : cols.Nodup) (h1 : cols[i]? = some prop) (h2 : vals[i]? = some v) :
    (cols.zip vals).lookup prop = some v := by
  induction cols generalizing vals i with
  | nil => simp at h1
  | cons c cs ih =>
    cases vals with
    | nil => simp at h2
    | cons x xs =>
      rw [List.zip_cons_cons, List.lookup_cons]
      cases i with
      | zero =>
        simp only [List.getElem?_cons_zero, Option.some.injEq] at h1 h2
        simp [h1, h2]
      | succ i =>
        simp only [List.getElem?_cons_succ] at h1 h2
        have : (prop == c) = false := by
          rw [beq_eq_false_iff_ne]
          rintro rfl
          exact (List.nodup_cons.mp hn).1 (List.mem_of_getElem? h1)
        rw [this]
        exact ih (List.nodup_cons.mp hn).2 h1 h2

theorem mem_zip_iff {α : Type} {cols : List String} {vals : List α} {prop : String} {v : α} :
    (prop, v) ∈ cols.zip vals ↔ ∃ i : ℕ, cols[i]? = some prop ∧ vals[i]? = some v := by
  rw [List.mem_iff_getElem?]
  simp only [List.getElem?_zip_eq_some]

/-- In an association list without repeated keys, lookup and membership agree. -/
theorem lookup_iff_mem {α : Type} {l : List (String × α)} (hn : (l.map (·.1)).Nodup) {k : String}
    {v : α} : l.lookup k = some v ↔ (k, v) ∈ l := by
  induction l with
  | nil => simp
  | cons a l ih =>
    obtain ⟨a1, a2⟩ := a
    rw [List.map_cons, List.nodup_cons] at hn
    rw [List.lookup_cons]
    cases hb : k == a1 with
    | true =>
      obtain rfl : k = a1 := beq_iff_eq.mp hb
      simp only [Option.some.injEq, List.mem_cons, Prod.mk.injEq, true_and]
      constructor
      · intro h; exact Or.inl h.symm
      · rintro (h | h)
        · exact h.symm
        · exact absurd (List.mem_map.mpr ⟨_, h, rfl⟩) hn.1
    | false =>
      have hne : k ≠ a1 := beq_eq_false_iff_ne.mp hb
      simp only [ih hn.2, List.mem_cons, Prod.mk.injEq, hne, false_and, false_or]

theorem map_fst_zip_sublist {α β : Type} (l : List α) (m : List β) :
    ((l.zip m).map (·.1)).Sublist l := by
  induction l generalizing m with
  | nil => simp
  | cons a l ih =>
    cases m with
    | nil => simp
    | cons b m => simpa using ih m

end Pypbomb
