/-
The text pint writes for a dimension determines the dimension.
-/
import Verif.Model.DimText

namespace Pypbomb.DimText
open Pypbomb

/-- A dimension whose exponents are integers. -/
def Integral (d : Dim) : Prop := ∀ i ∈ d.items, i.2.den = 1

/-- Names of the base dimensions. -/
def baseNames : List String := ["current", "length", "luminosity", "mass", "substance", "temperature", "time"]

theorem items_names (d : Dim) : d.items.map (·.1) = baseNames := rfl

theorem repr_toList (n : ℕ) : (Nat.repr n).toList = Nat.toDigits 10 n := by
  simp [Nat.repr]

theorem repr_inj {m n : ℕ} (h : Nat.repr m = Nat.repr n) : m = n := by
  have h2 := congrArg (fun s => Nat.ofDigitChars 10 s.toList 0) h
  simpa [repr_toList, Nat.ofDigitChars_toDigits] using h2

theorem repr_digit {n : ℕ} {c : Char} (h : c ∈ (Nat.repr n).toList) : c.isDigit = true := by
  rw [repr_toList] at h
  exact Nat.isDigit_of_mem_toDigits (by norm_num) (by norm_num) h

/-- A factor as name and absolute exponent. -/
def blockWords (b : String × ℕ) : List String :=
  if b.2 = 1 then [b.1] else [b.1, "**", Nat.repr b.2]

theorem factor_eq (i : String × ℚ) (h : i.2.den = 1) :
    factorWords id i = blockWords (i.1, i.2.num.natAbs) := by
  have e : i.2 = (i.2.num : ℚ) := ((Rat.den_eq_one_iff i.2).mp h).symm
  have e2 : |i.2| = 1 ↔ i.2.num.natAbs = 1 := by
    rw [e]
    have : |((i.2.num : ℤ) : ℚ)| = ((i.2.num.natAbs : ℕ) : ℚ) := by
      rw [Nat.cast_natAbs, Int.cast_abs]
    rw [this]
    simp only [Rat.num_intCast]
    norm_cast
  unfold factorWords blockWords exponentText
  simp only [e2, h, if_true, id]

/-- A list of words that does not go on with an exponent. -/
def NoPower : List String → Prop
  | [] => True
  | w :: _ => w ≠ "**"

theorem block_cancel {b b' : String × ℕ} {r r' : List String} (hr : NoPower r) (hr' : NoPower r')
    (h : blockWords b ++ r = blockWords b' ++ r') : b = b' ∧ r = r' := by
  obtain ⟨n, k⟩ := b
  obtain ⟨n', k'⟩ := b'
  unfold blockWords at h
  by_cases h1 : k = 1 <;> by_cases h2 : k' = 1
  · subst h1 h2
    simpa using h
  · exfalso
    simp only [h1, h2, if_true, if_false, List.cons_append, List.nil_append, List.cons.injEq] at h
    obtain ⟨-, h⟩ := h
    subst h
    exact hr rfl
  · exfalso
    simp only [h1, h2, if_true, if_false, List.cons_append, List.nil_append, List.cons.injEq] at h
    obtain ⟨-, h⟩ := h
    subst h
    exact hr' rfl
  · simp only [h1, h2, if_false, List.cons_append, List.nil_append, List.cons.injEq, true_and] at h
    obtain ⟨a, b, c⟩ := h
    exact ⟨by rw [a, repr_inj b], c⟩

/-- The words after the first positive factor. -/
def tailWords (ps ns : List (String × ℕ)) : List String :=
  (ps.flatMap fun b => "*" :: blockWords b) ++ ns.flatMap fun b => "/" :: blockWords b

theorem tail_noPower (ps ns : List (String × ℕ)) : NoPower (tailWords ps ns) := by
  unfold tailWords
  cases ps with
  | cons p ps => simp [NoPower]
  | nil =>
    cases ns with
    | cons n ns => simp [NoPower]
    | nil => simp [NoPower]

theorem tail_cons (p : String × ℕ) (ps ns : List (String × ℕ)) :
    tailWords (p :: ps) ns = "*" :: (blockWords p ++ tailWords ps ns) := by
  simp [tailWords]

theorem tail_nil_cons (n : String × ℕ) (ns : List (String × ℕ)) :
    tailWords [] (n :: ns) = "/" :: (blockWords n ++ tailWords [] ns) := by
  simp [tailWords]

theorem tail_nil : tailWords [] [] = [] := rfl

theorem tail_inj {ps ps' ns ns' : List (String × ℕ)} (h : tailWords ps ns = tailWords ps' ns') : ps = ps' ∧ ns = ns' := by
  have neg : ∀ ns ns' : List (String × ℕ), tailWords [] ns = tailWords [] ns' → ns = ns' := by
    intro ns
    induction ns with
    | nil =>
      intro ns' h
      cases ns' with
      | nil => rfl
      | cons n ns' => rw [tail_nil_cons, tail_nil] at h; exact absurd h (by simp)
    | cons n ns ih =>
      intro ns' h
      cases ns' with
      | nil => rw [tail_nil_cons, tail_nil] at h; exact absurd h (by simp)
      | cons n' ns' =>
        rw [tail_nil_cons, tail_nil_cons, List.cons.injEq] at h
        obtain ⟨e1, e2⟩ := block_cancel (tail_noPower _ _) (tail_noPower _ _) h.2
        rw [e1, ih _ e2]
  induction ps generalizing ps' with
  | nil =>
    cases ps' with
    | nil => exact ⟨rfl, neg _ _ h⟩
    | cons p ps' =>
      exfalso
      rw [tail_cons] at h
      cases ns with
      | nil => simp [tail_nil] at h
      | cons n ns => rw [tail_nil_cons] at h; simp at h
  | cons p ps ih =>
    cases ps' with
    | nil =>
      exfalso
      rw [tail_cons] at h
      cases ns' with
      | nil => simp [tail_nil] at h
      | cons n ns => rw [tail_nil_cons] at h; simp at h
    | cons p' ps' =>
      rw [tail_cons, tail_cons, List.cons.injEq] at h
      obtain ⟨e1, e2⟩ := block_cancel (tail_noPower _ _) (tail_noPower _ _) h.2
      obtain ⟨e3, e4⟩ := ih e2
      exact ⟨by rw [e1, e3], e4⟩

/-- Positive and negative factors as blocks. -/
def posBlocks (d : Dim) : List (String × ℕ) := (d.items.filter fun i => 0 < i.2).map fun i => (i.1, i.2.num.natAbs)
def negBlocks (d : Dim) : List (String × ℕ) := (d.items.filter fun i => i.2 < 0).map fun i => (i.1, i.2.num.natAbs)

/-- The words in terms of blocks. -/
def wordsOf (ps ns : List (String × ℕ)) : List String :=
  match ps, ns with
  | [], [] => ["dimensionless"]
  | [], ns => "1" :: tailWords [] ns
  | p :: ps, ns => blockWords p ++ tailWords ps ns

theorem flatMap_factor {sep : String} {l : List (String × ℚ)} (h : ∀ i ∈ l, i.2.den = 1) :
    (l.flatMap fun i => sep :: factorWords id i) =
      (l.map fun i => (i.1, i.2.num.natAbs)).flatMap fun b => sep :: blockWords b := by
  induction l with
  | nil => rfl
  | cons a l ih =>
    simp only [List.flatMap_cons, List.map_cons]
    rw [factor_eq a (h a (List.mem_cons_self ..)), ih fun i hi => h i (List.mem_cons_of_mem _ hi)]

theorem words_eq {d : Dim} (h : Integral d) : dimWords id d = wordsOf (posBlocks d) (negBlocks d) := by
  have hp : ∀ i ∈ d.items.filter fun i => 0 < i.2, i.2.den = 1 := fun i hi => h i (List.mem_filter.mp hi).1
  have hn : ∀ i ∈ d.items.filter fun i => i.2 < 0, i.2.den = 1 := fun i hi => h i (List.mem_filter.mp hi).1
  unfold dimWords posBlocks negBlocks
  revert hp hn
  generalize (d.items.filter fun i => decide (0 < i.2)) = ps
  generalize (d.items.filter fun i => decide (i.2 < 0)) = ns
  intro hp hn
  cases ps with
  | nil =>
    cases ns with
    | nil => rfl
    | cons n ns =>
      simp only
      rw [flatMap_factor hn]
      simp [wordsOf, tailWords]
  | cons p ps =>
    simp only
    rw [factor_eq p (hp p (List.mem_cons_self ..)), flatMap_factor hn,
      flatMap_factor fun i hi => hp i (List.mem_cons_of_mem _ hi)]
    simp [wordsOf, tailWords]

theorem blocks_names {d : Dim} {b : String × ℕ} (h : b ∈ posBlocks d ∨ b ∈ negBlocks d) : b.1 ∈ baseNames := by
  rw [← items_names d]
  rcases h with h | h
  all_goals
    obtain ⟨i, hi, rfl⟩ := List.mem_map.mp h
    exact List.mem_map.mpr ⟨i, (List.mem_filter.mp hi).1, rfl⟩

theorem blockWords_head (b : String × ℕ) : ∃ r, blockWords b = b.1 :: r := by
  unfold blockWords
  split
  · exact ⟨_, rfl⟩
  · exact ⟨_, rfl⟩

theorem wordsOf_inj {ps ps' ns ns' : List (String × ℕ)} (hp : ∀ b ∈ ps, b.1 ∈ baseNames) (hp' : ∀ b ∈ ps', b.1 ∈ baseNames)
    (h : wordsOf ps ns = wordsOf ps' ns') : ps = ps' ∧ ns = ns' := by
  have n1 : ∀ s ∈ baseNames, s ≠ "1" := by decide
  have n2 : ∀ s ∈ baseNames, s ≠ "dimensionless" := by decide
  have key : ∀ (p : String × ℕ) (t ns : List (String × ℕ)) (u : List String), p.1 ∈ baseNames →
      blockWords p ++ u ≠ wordsOf [] ns := by
    intro p t ns u hp h
    obtain ⟨r, e⟩ := blockWords_head p
    rw [e] at h
    cases ns with
    | nil =>
      simp only [wordsOf, List.cons_append, List.cons.injEq] at h
      exact n2 _ hp h.1
    | cons n ns =>
      simp only [wordsOf, List.cons_append, List.cons.injEq] at h
      exact n1 _ hp h.1
  cases ps with
  | nil =>
    cases ps' with
    | nil =>
      refine ⟨rfl, ?_⟩
      cases ns with
      | nil =>
        cases ns' with
        | nil => rfl
        | cons n ns' => simp [wordsOf] at h
      | cons n ns =>
        cases ns' with
        | nil => simp [wordsOf] at h
        | cons n' ns' =>
          simp only [wordsOf, List.cons.injEq, true_and] at h
          exact (tail_inj h).2
    | cons p' ps' => exact absurd h.symm (key p' ps' ns _ (hp' _ (List.mem_cons_self ..)))
  | cons p ps =>
    cases ps' with
    | nil => exact absurd h (key p ps ns' _ (hp _ (List.mem_cons_self ..)))
    | cons p' ps' =>
      simp only [wordsOf] at h
      obtain ⟨e1, e2⟩ := block_cancel (tail_noPower _ _) (tail_noPower _ _) h
      obtain ⟨e3, e4⟩ := tail_inj e2
      exact ⟨by rw [e1, e3], e4⟩

theorem num_eq {q q' : ℚ} (h : q.den = 1) (h' : q'.den = 1) (e : q.num.natAbs = q'.num.natAbs)
    (hs : 0 < q ∧ 0 < q' ∨ q < 0 ∧ q' < 0) : q = q' := by
  have e1 : q = (q.num : ℚ) := ((Rat.den_eq_one_iff q).mp h).symm
  have e2 : q' = (q'.num : ℚ) := ((Rat.den_eq_one_iff q').mp h').symm
  have : q.num = q'.num := by
    rcases hs with ⟨a, b⟩ | ⟨a, b⟩
    · have := Rat.num_pos.mpr a; have := Rat.num_pos.mpr b; omega
    · have := Rat.num_neg.mpr a; have := Rat.num_neg.mpr b; omega
  rw [e1, e2, this]

/-- Equal factors, equal exponent of a name. -/
theorem exponent_eq {d d' : Dim} (h : Integral d) (h' : Integral d') (hp : posBlocks d = posBlocks d')
    (hn : negBlocks d = negBlocks d') {n : String} {q q' : ℚ} (hi : (n, q) ∈ d.items) (hi' : (n, q') ∈ d'.items) :
    q ≠ 0 → q = q' := by
  have nodup : ∀ d : Dim, (d.items.map (·.1)).Nodup := by intro d; rw [items_names]; decide
  have uniq : ∀ (d : Dim) (a b : ℚ), (n, a) ∈ d.items → (n, b) ∈ d.items → a = b := by
    intro d a b ha hb
    have := List.inj_on_of_nodup_map (nodup d) ha hb rfl
    exact congrArg Prod.snd this
  intro h0
  rcases lt_or_gt_of_ne h0 with hq | hq
  · have : (n, q.num.natAbs) ∈ negBlocks d :=
      List.mem_map.mpr ⟨(n, q), List.mem_filter.mpr ⟨hi, by simpa using hq⟩, rfl⟩
    rw [hn] at this
    obtain ⟨⟨m, r⟩, hr, e⟩ := List.mem_map.mp this
    obtain ⟨hr, hr0⟩ := List.mem_filter.mp hr
    simp only [Prod.mk.injEq] at e
    obtain ⟨rfl, e⟩ := e
    have hr0 : r < 0 := by simpa using hr0
    have e2 := uniq d' r q' hr hi'
    subst e2
    exact num_eq (h _ hi) (h' _ hi') e.symm (Or.inr ⟨hq, hr0⟩)
  · have : (n, q.num.natAbs) ∈ posBlocks d :=
      List.mem_map.mpr ⟨(n, q), List.mem_filter.mpr ⟨hi, by simpa using hq⟩, rfl⟩
    rw [hp] at this
    obtain ⟨⟨m, r⟩, hr, e⟩ := List.mem_map.mp this
    obtain ⟨hr, hr0⟩ := List.mem_filter.mp hr
    simp only [Prod.mk.injEq] at e
    obtain ⟨rfl, e⟩ := e
    have hr0 : 0 < r := by simpa using hr0
    have e2 := uniq d' r q' hr hi'
    subst e2
    exact num_eq (h _ hi) (h' _ hi') e.symm (Or.inl ⟨hq, hr0⟩)

theorem dim_of_blocks {d d' : Dim} (h : Integral d) (h' : Integral d') (hp : posBlocks d = posBlocks d')
    (hn : negBlocks d = negBlocks d') : d = d' := by
  have key : ∀ n q q', (n, q) ∈ d.items → (n, q') ∈ d'.items → q = q' := by
    intro n q q' hi hi'
    by_cases h0 : q = 0
    · by_cases h0' : q' = 0
      · rw [h0, h0']
      · exact (exponent_eq h' h hp.symm hn.symm hi' hi h0').symm
    · exact exponent_eq h h' hp hn hi hi' h0
  apply Dim.ext
  · exact key "length" _ _ (by simp [Dim.items]) (by simp [Dim.items])
  · exact key "mass" _ _ (by simp [Dim.items]) (by simp [Dim.items])
  · exact key "time" _ _ (by simp [Dim.items]) (by simp [Dim.items])
  · exact key "temperature" _ _ (by simp [Dim.items]) (by simp [Dim.items])
  · exact key "substance" _ _ (by simp [Dim.items]) (by simp [Dim.items])
  · exact key "current" _ _ (by simp [Dim.items]) (by simp [Dim.items])
  · exact key "luminosity" _ _ (by simp [Dim.items]) (by simp [Dim.items])

theorem words_inj {d d' : Dim} (h : Integral d) (h' : Integral d') (e : dimWords id d = dimWords id d') : d = d' := by
  rw [words_eq h, words_eq h'] at e
  obtain ⟨e1, e2⟩ := wordsOf_inj (fun b hb => blocks_names (Or.inl hb)) (fun b hb => blocks_names (Or.inl hb)) e
  exact dim_of_blocks h h' e1 e2

/-! ### From words to text -/

theorem drop_append (a b : String) : dropBrackets (a ++ b) = dropBrackets a ++ dropBrackets b := by
  simp [dropBrackets, String.ofList_append]

theorem drop_toList (a : String) : (dropBrackets a).toList = a.toList.filter fun c => c ≠ '[' ∧ c ≠ ']' := by
  simp [dropBrackets]

theorem drop_of_free {a : String} (h : ∀ c ∈ a.toList, c ≠ '[' ∧ c ≠ ']') : dropBrackets a = a := by
  apply String.toList_injective
  rw [drop_toList, List.filter_eq_self]
  intro c hc
  simpa using h c hc

/-- The words of a text can be read off again. -/
theorem intercalate_inj {l l' : List String} (h : ∀ w ∈ l, ' ' ∉ w.toList) (h' : ∀ w ∈ l', ' ' ∉ w.toList) (hn : l ≠ [])
    (hn' : l' ≠ []) (e : String.intercalate " " l = String.intercalate " " l') : l = l' := by
  have e2 := congrArg String.toList e
  rw [String.toList_intercalate, String.toList_intercalate] at e2
  have hs : " ".toList = [' '] := rfl
  rw [hs] at e2
  have e3 := congrArg (List.splitOn ' ') e2
  rw [List.splitOn_intercalate ' ' (by simpa using h) (by simpa using hn),
    List.splitOn_intercalate ' ' (by simpa using h') (by simpa using hn')] at e3
  exact List.map_injective_iff.mpr (fun _ _ h => String.toList_injective h) e3

theorem filter_intercalate {p : Char → Bool} {sep : List Char} (hs : sep.filter p = sep) (ls : List (List Char)) :
    (sep.intercalate ls).filter p = sep.intercalate (ls.map (List.filter p)) := by
  induction ls with
  | nil => rfl
  | cons a ls ih =>
    cases ls with
    | nil => simp [List.intercalate]
    | cons b ls =>
      simp only [List.intercalate_cons_cons, List.map_cons, List.filter_append, hs] at ih ⊢
      rw [ih]

theorem drop_intercalate (l : List String) :
    dropBrackets (String.intercalate " " l) = String.intercalate " " (l.map dropBrackets) := by
  apply String.toList_injective
  rw [drop_toList, String.toList_intercalate, String.toList_intercalate, filter_intercalate (by decide), List.map_map,
    List.map_map]
  congr 1
  apply List.map_congr_left
  intro s _
  exact (drop_toList s).symm

theorem exponent_chars {q : ℚ} {c : Char} (h : c ∈ (exponentText q).toList) : c.isDigit = true ∨ c = '/' := by
  unfold exponentText at h
  split at h
  · exact Or.inl (repr_digit h)
  · simp only [String.toList_append, List.mem_append] at h
    rcases h with (h | h) | h
    · exact Or.inl (repr_digit h)
    · right; simpa using h
    · exact Or.inl (repr_digit h)

theorem drop_exponent (q : ℚ) : dropBrackets (exponentText q) = exponentText q := by
  apply drop_of_free
  intro c hc
  rcases exponent_chars hc with h | rfl
  · constructor <;> (rintro rfl; revert h; decide)
  · decide

/-- Names in brackets, as in `str(dimensionality)`. -/
abbrev bracketed (n : String) : String := "[" ++ n ++ "]"

theorem drop_factor {i : String × ℚ} (h : i.1 ∈ baseNames) :
    (factorWords bracketed i).map dropBrackets = factorWords id i := by
  have hn : ∀ n ∈ baseNames, dropBrackets (bracketed n) = n := by decide +kernel
  unfold factorWords
  split
  · simp only [List.map_cons, List.map_nil, hn _ h, id]
  · simp only [List.map_cons, List.map_nil, hn _ h, id, drop_exponent]
    rfl

theorem drop_flatMap {sep : String} (hs : dropBrackets sep = sep) {l : List (String × ℚ)} (h : ∀ i ∈ l, i.1 ∈ baseNames) :
    (l.flatMap fun i => sep :: factorWords bracketed i).map dropBrackets = l.flatMap fun i => sep :: factorWords id i := by
  induction l with
  | nil => rfl
  | cons a l ih =>
    simp only [List.flatMap_cons, List.map_append, List.map_cons, hs]
    rw [drop_factor (h a (List.mem_cons_self ..)), ih fun i hi => h i (List.mem_cons_of_mem _ hi)]

theorem drop_words (d : Dim) : (dimWords bracketed d).map dropBrackets = dimWords id d := by
  have hi : ∀ i ∈ d.items, i.1 ∈ baseNames := by
    intro i hi
    rw [← items_names d]
    exact List.mem_map.mpr ⟨i, hi, rfl⟩
  have hp : ∀ i ∈ d.items.filter fun i => 0 < i.2, i.1 ∈ baseNames := fun i h => hi i (List.mem_filter.mp h).1
  have hn : ∀ i ∈ d.items.filter fun i => i.2 < 0, i.1 ∈ baseNames := fun i h => hi i (List.mem_filter.mp h).1
  have s1 : dropBrackets "/" = "/" := by decide +kernel
  have s2 : dropBrackets "*" = "*" := by decide +kernel
  have s3 : dropBrackets "1" = "1" := by decide +kernel
  have s4 : dropBrackets "dimensionless" = "dimensionless" := by decide +kernel
  unfold dimWords
  revert hp hn
  generalize (d.items.filter fun i => decide (0 < i.2)) = ps
  generalize (d.items.filter fun i => decide (i.2 < 0)) = ns
  intro hp hn
  cases ps with
  | nil =>
    cases ns with
    | nil => simp only [List.map_cons, List.map_nil, s4]
    | cons n ns =>
      simp only [List.map_cons, s3]
      rw [drop_flatMap s1 hn]
  | cons p ps =>
    simp only [List.map_append]
    rw [drop_factor (hp p (List.mem_cons_self ..)), drop_flatMap s1 hn,
      drop_flatMap s2 fun i h => hp i (List.mem_cons_of_mem _ h)]

/-- The text without brackets. -/
theorem plain_eq (d : Dim) : dropBrackets (dimText d) = String.intercalate " " (dimWords id d) := by
  unfold dimText
  rw [drop_intercalate, drop_words]

theorem words_ne_nil (d : Dim) : dimWords id d ≠ [] := by
  unfold dimWords
  simp only
  split
  · simp
  · simp
  · unfold factorWords
    split <;> simp

theorem factor_free {i : String × ℚ} (h : i.1 ∈ baseNames) {w : String} (hw : w ∈ factorWords id i) : ' ' ∉ w.toList := by
  have hn : ∀ n ∈ baseNames, ' ' ∉ n.toList := by decide
  have hx : ' ' ∉ (exponentText i.2).toList := by
    intro hc
    rcases exponent_chars hc with h | h
    · revert h; decide
    · revert h; decide
  have hs : ' ' ∉ "**".toList := by decide
  unfold factorWords at hw
  split at hw
  · simp only [List.mem_singleton, id] at hw
    subst hw
    exact hn _ h
  · simp only [List.mem_cons, List.not_mem_nil, or_false, id] at hw
    rcases hw with rfl | rfl | rfl
    · exact hn _ h
    · exact hs
    · exact hx

theorem words_free (d : Dim) : ∀ w ∈ dimWords id d, ' ' ∉ w.toList := by
  have hi : ∀ i ∈ d.items, i.1 ∈ baseNames := by
    intro i hi
    rw [← items_names d]
    exact List.mem_map.mpr ⟨i, hi, rfl⟩
  have hp : ∀ i ∈ d.items.filter fun i => 0 < i.2, i.1 ∈ baseNames := fun i h => hi i (List.mem_filter.mp h).1
  have hn : ∀ i ∈ d.items.filter fun i => i.2 < 0, i.1 ∈ baseNames := fun i h => hi i (List.mem_filter.mp h).1
  have flat : ∀ (sep : String) (l : List (String × ℚ)), ' ' ∉ sep.toList → (∀ i ∈ l, i.1 ∈ baseNames) →
      ∀ w ∈ l.flatMap (fun i => sep :: factorWords id i), ' ' ∉ w.toList := by
    intro sep l hs hl w hw
    obtain ⟨i, h1, h2⟩ := List.mem_flatMap.mp hw
    rcases List.mem_cons.mp h2 with rfl | h2
    · exact hs
    · exact factor_free (hl i h1) h2
  have s1 : ' ' ∉ "/".toList := by decide
  have s2 : ' ' ∉ "*".toList := by decide
  have s3 : ' ' ∉ "1".toList := by decide
  have s4 : ' ' ∉ "dimensionless".toList := by decide
  unfold dimWords
  revert hp hn
  generalize (d.items.filter fun i => decide (0 < i.2)) = ps
  generalize (d.items.filter fun i => decide (i.2 < 0)) = ns
  intro hp hn w hw
  cases ps with
  | nil =>
    cases ns with
    | nil =>
      simp only [List.mem_singleton] at hw
      subst hw
      exact s4
    | cons n ns =>
      simp only at hw
      rcases List.mem_cons.mp hw with rfl | hw
      · exact s3
      · exact flat _ _ s1 hn w hw
  | cons p ps =>
    simp only [List.mem_append] at hw
    rcases hw with (hw | hw) | hw
    · exact factor_free (hp p (List.mem_cons_self ..)) hw
    · exact flat _ _ s2 (fun i h => hp i (List.mem_cons_of_mem _ h)) w hw
    · exact flat _ _ s1 hn w hw

/-- The text without brackets determines a dimension with integer exponents. -/
theorem plain_inj {d d' : Dim} (h : Integral d) (h' : Integral d')
    (e : dropBrackets (dimText d) = dropBrackets (dimText d')) : d = d' := by
  rw [plain_eq, plain_eq] at e
  exact words_inj h h' (intercalate_inj (words_free d) (words_free d') (words_ne_nil d) (words_ne_nil d') e)

end Pypbomb.DimText
