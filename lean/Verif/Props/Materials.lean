/-
C50: the check of the material list at import.
-/
import Verif.Spec
import Verif.Model.Materials

namespace Pypbomb.Materials

variable {dir : String} {files : List Entry} {materials : List (String × String)}
  {iter : List String → List String}

/-! ### Specification -/

/-- `sub` occurs in `s`. -/
def Contains (s sub : String) : Prop := ∃ a b : List Char, s.toList = a ++ sub.toList ++ b

/-- `w` is all blanks. -/
def Blank (w : List Char) : Prop := ∀ c ∈ w, c.isWhitespace = true

/-- The header line has a comma-separated field `g` after its first field; blanks around the line do not
count. -/
def HasColumn (line g : String) : Prop :=
  ∃ w l w' a b : List Char, line.toList = w ++ l ++ w' ∧ Blank w ∧ Blank w' ∧
    (∀ c, l.head? = some c → c.isWhitespace = false) ∧
    (∀ c, l.getLast? = some c → c.isWhitespace = false) ∧
    l = a ++ ',' :: g.toList ++ b ∧ ',' ∉ g.toList ∧ (b = [] ∨ ∃ b', b = ',' :: b')

/-- The capital letters and their small letters. -/
def capitals : List (Char × Char) :=
  [('A','a'), ('B','b'), ('C','c'), ('D','d'), ('E','e'), ('F','f'), ('G','g'), ('H','h'), ('I','i'), ('J','j'),
    ('K','k'), ('L','l'), ('M','m'), ('N','n'), ('O','o'), ('P','p'), ('Q','q'), ('R','r'), ('S','s'), ('T','t'),
    ('U','u'), ('V','v'), ('W','w'), ('X','x'), ('Y','y'), ('Z','z')]

/-- `c` is the small letter `w` or its capital. -/
def SameLetter (c w : Char) : Prop := c = w ∨ (c, w) ∈ capitals

/-- The word (in small letters) occurs in `s` in some capitalisation. -/
def ContainsWord (s word : String) : Prop :=
  ∃ a m b : List Char, s.toList = a ++ m ++ b ∧ List.Forall₂ SameLetter m word.toList

/-- Names of stress and flange files contain the word in any capitalisation. -/
def IsStress (f : Entry) : Prop := ContainsWord f.name "stress"
def IsFlange (f : Entry) : Prop := ContainsWord f.name "flange"

/-- The name of a file mentions the group (dots written as underscores), not at its very beginning. -/
def Mentions (f : Entry) (group : String) : Prop :=
  Contains f.name (Flange.fileGroup group) ∧ ¬ ∃ b, f.name.toList = (Flange.fileGroup group).toList ++ b

/-! ### Strings -/

theorem toLower_capital (c : Char) : c.toLower = c ∨ (c, c.toLower) ∈ capitals := by
  by_cases h : 65 ≤ c.toNat ∧ c.toNat ≤ 90
  · right
    have e : c = Char.ofNat c.toNat := by simp
    obtain ⟨h1, h2⟩ := h
    generalize c.toNat = k at *
    subst e
    have hk : ∀ j : Fin 26, (Char.ofNat (65 + j), (Char.ofNat (65 + j)).toLower) ∈ capitals := by decide
    have := hk ⟨k - 65, by omega⟩
    rwa [show 65 + (k - 65) = k by omega] at this
  · left
    unfold Char.toLower
    rw [dif_neg]
    intro h'
    apply h
    have h1 := h'.1
    have h2 := h'.2
    simp only [ge_iff_le, UInt32.le_iff_toNat_le] at h1 h2
    exact ⟨h1, h2⟩

theorem sameLetter_iff {c w : Char} (hw : w.toLower = w) : SameLetter c w ↔ c.toLower = w := by
  constructor
  · rintro (rfl | h)
    · exact hw
    · have : ∀ p ∈ capitals, p.1.toLower = p.2 := by decide
      exact this _ h
  · rintro rfl
    rcases toLower_capital c with h | h
    · exact Or.inl h.symm
    · exact Or.inr h

theorem contains_lower {s word : String} (hw : ∀ w ∈ word.toList, w.toLower = w) :
    ContainsWord s word ↔ Contains (lower s) word := by
  have key : ∀ (l m : List Char), (∀ w ∈ l, w.toLower = w) → (List.Forall₂ SameLetter m l ↔ m.map Char.toLower = l) := by
    intro l
    induction l with
    | nil => intro m _; cases m <;> simp
    | cons w l ih =>
      intro m h
      cases m with
      | nil => simp
      | cons c m =>
        simp only [List.forall₂_cons, List.map_cons, List.cons.injEq]
        rw [sameLetter_iff (h w (by simp)), ih m fun w hw => h w (by simp [hw])]
  unfold ContainsWord Contains lower
  simp only [String.toList_ofList]
  constructor
  · rintro ⟨a, m, b, h, hm⟩
    exact ⟨a.map Char.toLower, b.map Char.toLower, by rw [h, ← (key _ _ hw).mp hm]; simp⟩
  · rintro ⟨a, b, h⟩
    obtain ⟨am, b', e, h1, h2⟩ := List.map_eq_append_iff.mp h
    obtain ⟨a', m, rfl, h3, h4⟩ := List.map_eq_append_iff.mp h1
    exact ⟨a', m, b', e, (key _ _ hw).mpr h4⟩
theorem splitOnChar_ne (c : Char) (l : List Char) : splitOnChar c l ≠ [] := by
  cases l with
  | nil => simp [splitOnChar]
  | cons x xs =>
    simp only [splitOnChar]
    split
    · simp
    · split <;> simp

theorem splitOnChar_head (c : Char) (l : List Char) :
    ∃ t, splitOnChar c l = l.takeWhile (· ≠ c) :: t := by
  induction l with
  | nil => exact ⟨[], rfl⟩
  | cons x xs ih =>
    obtain ⟨t, ht⟩ := ih
    simp only [splitOnChar]
    split
    · rename_i h; exact ⟨_, by simp [h]; rfl⟩
    · rename_i h; rw [ht]; exact ⟨t, by simp [h]⟩

theorem mem_splitOnChar_tail (c : Char) (l g : List Char) :
    g ∈ (splitOnChar c l).drop 1 ↔ ∃ a r, l = a ++ c :: r ∧ r.takeWhile (· ≠ c) = g := by
  induction l with
  | nil => simp [splitOnChar]
  | cons x xs ih =>
    obtain ⟨t, ht⟩ := splitOnChar_head c xs
    simp only [splitOnChar]
    split
    · rename_i h
      subst h
      rw [ht] at ih ⊢
      simp only [List.drop_succ_cons, List.drop_zero, List.mem_cons] at ih ⊢
      rw [ih]
      constructor
      · rintro (rfl | ⟨a, r, e, rfl⟩)
        · exact ⟨[], xs, rfl, rfl⟩
        · exact ⟨x :: a, r, by rw [e]; rfl, rfl⟩
      · rintro ⟨a, r, e, rfl⟩
        cases a with
        | nil => simp only [List.nil_append, List.cons.injEq, true_and] at e; subst e; exact Or.inl rfl
        | cons y a =>
          simp only [List.cons_append, List.cons.injEq] at e
          exact Or.inr ⟨a, r, e.2, rfl⟩
    · rename_i h
      rw [ht] at ih ⊢
      simp only [List.drop_succ_cons, List.drop_zero] at ih ⊢
      rw [ih]
      constructor
      · rintro ⟨a, r, e, rfl⟩
        exact ⟨x :: a, r, by rw [e]; rfl, rfl⟩
      · rintro ⟨a, r, e, rfl⟩
        cases a with
        | nil => simp only [List.nil_append, List.cons.injEq] at e; exact absurd e.1 h
        | cons y a =>
          simp only [List.cons_append, List.cons.injEq] at e
          exact ⟨a, r, e.2, rfl⟩

theorem takeWhile_eq_iff (c : Char) (r g : List Char) :
    r.takeWhile (· ≠ c) = g ↔ c ∉ g ∧ ∃ b, r = g ++ b ∧ (b = [] ∨ ∃ b', b = c :: b') := by
  induction r generalizing g with
  | nil =>
    constructor
    · rintro rfl; exact ⟨by simp, [], rfl, Or.inl rfl⟩
    · rintro ⟨-, b, e, -⟩
      simp only [List.nil_eq, List.append_eq_nil_iff] at e
      simp [e.1]
  | cons x r ih =>
    by_cases hx : x = c
    · subst hx
      simp only [ne_eq, decide_not, List.takeWhile_cons, decide_true, Bool.not_true,
        Bool.false_eq_true, ↓reduceIte]
      constructor
      · rintro rfl; exact ⟨by simp, x :: r, rfl, Or.inr ⟨r, rfl⟩⟩
      · rintro ⟨h, b, e, -⟩
        cases g with
        | nil => rfl
        | cons y g =>
          simp only [List.cons_append, List.cons.injEq] at e
          rw [e.1] at h; simp at h
    · have e1 : (x :: r).takeWhile (· ≠ c) = x :: r.takeWhile (· ≠ c) := by simp [hx]
      rw [e1]
      cases g with
      | nil =>
        simp only [reduceCtorEq, List.nil_append, false_iff]
        rintro ⟨-, b, rfl, h | ⟨b', h⟩⟩
        · simp at h
        · simp only [List.cons.injEq] at h; exact hx h.1
      | cons y g =>
        simp only [List.cons.injEq, List.cons_append, List.mem_cons, not_or]
        rw [ih]
        constructor
        · rintro ⟨rfl, h, b, e, hb⟩
          exact ⟨⟨fun h => hx h.symm, h⟩, b, ⟨rfl, e⟩, hb⟩
        · rintro ⟨⟨-, h⟩, b, ⟨rfl, e⟩, hb⟩
          exact ⟨rfl, h, b, e, hb⟩

theorem mem_takeWhile_true {p : Char → Bool} {l : List Char} {c : Char} (h : c ∈ l.takeWhile p) :
    p c = true := List.all_eq_true.mp List.all_takeWhile c h

theorem strip_spec (l : List Char) : ∃ w w', l = w ++ strip l ++ w' ∧ Blank w ∧ Blank w' ∧
    (∀ c, (strip l).head? = some c → c.isWhitespace = false) ∧
    (∀ c, (strip l).getLast? = some c → c.isWhitespace = false) := by
  set m := l.dropWhile Char.isWhitespace with hm
  have e1 : l = l.takeWhile Char.isWhitespace ++ m := (List.takeWhile_append_dropWhile).symm
  have e2 : m = strip l ++ (m.reverse.takeWhile Char.isWhitespace).reverse := by
    have h := (List.takeWhile_append_dropWhile (p := Char.isWhitespace) (l := m.reverse)).symm
    have h2 := congrArg List.reverse h
    rw [List.reverse_reverse, List.reverse_append] at h2
    exact h2
  refine ⟨l.takeWhile Char.isWhitespace, (m.reverse.takeWhile Char.isWhitespace).reverse, ?_, ?_, ?_, ?_, ?_⟩
  · rw [List.append_assoc, ← e2]; exact e1
  · intro c hc; exact mem_takeWhile_true hc
  · intro c hc; exact mem_takeWhile_true (List.mem_reverse.mp hc)
  · intro c hc
    have hmc : m.head? = some c := by
      rw [e2]
      cases hs : strip l with
      | nil => rw [hs] at hc; simp at hc
      | cons x t => rw [hs] at hc; simpa using hc
    have := List.head?_dropWhile_not (p := Char.isWhitespace) (l := l)
    rw [← hm, hmc] at this
    simpa using this
  · intro c hc
    have := List.head?_dropWhile_not (p := Char.isWhitespace) (l := m.reverse)
    unfold strip at hc
    rw [← hm, List.getLast?_reverse] at hc
    rw [hc] at this
    simpa using this

theorem dropWhile_blank {p : Char → Bool} {w m : List Char} (hw : ∀ c ∈ w, p c = true)
    (hm : ∀ c, m.head? = some c → p c = false) : (w ++ m).dropWhile p = m := by
  induction w with
  | nil =>
    cases m with
    | nil => rfl
    | cons x m => simp [hm x rfl]
  | cons x w ih =>
    simp only [List.cons_append, List.dropWhile_cons, hw x (by simp), if_true]
    exact ih fun c hc => hw c (by simp [hc])

theorem strip_eq {w l w' : List Char} (hw : Blank w) (hw' : Blank w')
    (h1 : ∀ c, l.head? = some c → c.isWhitespace = false)
    (h2 : ∀ c, l.getLast? = some c → c.isWhitespace = false) : strip (w ++ l ++ w') = l := by
  unfold strip
  cases l with
  | nil =>
    have : (w ++ [] ++ w').dropWhile Char.isWhitespace = [] := by
      have := dropWhile_blank (p := Char.isWhitespace) (w := w ++ w') (m := []) (by
        intro c hc
        rcases List.mem_append.mp hc with h | h
        · exact hw c h
        · exact hw' c h) (by simp)
      simpa using this
    rw [this]; rfl
  | cons x l =>
    rw [List.append_assoc, dropWhile_blank hw (by simpa using h1), List.reverse_append,
      dropWhile_blank (fun c hc => hw' c (List.mem_reverse.mp hc)), List.reverse_reverse]
    intro c hc
    rw [List.head?_reverse] at hc
    exact h2 c hc

theorem mem_columns (line g : String) : g ∈ columns line ↔ HasColumn line g := by
  unfold columns
  rw [List.mem_map]
  constructor
  · rintro ⟨k, hk, rfl⟩
    rw [mem_splitOnChar_tail] at hk
    obtain ⟨a, r, e, hr⟩ := hk
    rw [takeWhile_eq_iff] at hr
    obtain ⟨hc, b, rfl, hb⟩ := hr
    obtain ⟨w, w', el, hw, hw', h1, h2⟩ := strip_spec line.toList
    refine ⟨w, _, w', a, b, el, hw, hw', h1, h2, ?_, ?_, hb⟩
    · rw [e, String.toList_ofList]; simp
    · rw [String.toList_ofList]; exact hc
  · rintro ⟨w, l, w', a, b, el, hw, hw', h1, h2, e, hc, hb⟩
    refine ⟨g.toList, ?_, String.ofList_toList⟩
    rw [mem_splitOnChar_tail, el, strip_eq hw hw' h1 h2]
    refine ⟨a, g.toList ++ b, by rw [e]; simp, ?_⟩
    rw [takeWhile_eq_iff]
    exact ⟨hc, b, rfl, hb⟩

theorem pyFind_neg {sub l : List Char} {n : ℕ} : pyFind sub l n = -1 ∨ (n : ℤ) ≤ pyFind sub l n := by
  induction l generalizing n with
  | nil => simp only [pyFind]; split <;> simp
  | cons c l ih =>
    simp only [pyFind]
    split
    · simp
    · rcases ih (n := n + 1) with h | h
      · exact Or.inl h
      · right; push_cast at h; omega

theorem pyFind_nonneg {sub l : List Char} {n : ℕ} : 0 ≤ pyFind sub l n ↔ sub <:+: l := by
  induction l generalizing n with
  | nil =>
    simp only [pyFind]
    split
    · rename_i h; subst h; simp
    · rename_i h; simp [h]
  | cons c l ih =>
    simp only [pyFind]
    split
    · rename_i h; simp [h.isInfix]
    · rename_i h; rw [ih, List.infix_cons_iff]; simp [h]

theorem pyFind_pos {sub l : List Char} : 0 < pyFind sub l 0 ↔ sub <:+: l ∧ ¬ sub <+: l := by
  cases l with
  | nil =>
    simp only [pyFind]
    split
    · rename_i h; subst h; simp
    · rename_i h; simp [h]
  | cons c l =>
    simp only [pyFind]
    split
    · rename_i h; simp [h]
    · rename_i h
      rw [List.infix_cons_iff]
      simp only [h, false_or, not_false_eq_true, and_true]
      rw [← pyFind_nonneg (n := 0 + 1)]
      have h := pyFind_neg (sub := sub) (l := l) (n := 0 + 1)
      generalize pyFind sub l (0 + 1) = z at *
      push_cast at h
      omega

theorem contains_iff {s sub : String} : pyIn sub s = true ↔ Contains s sub := pyIn_iff sub s

theorem contains_infix {s sub : String} : Contains s sub ↔ sub.toList <:+: s.toList := by
  rw [← contains_iff, pyIn, decide_eq_true_eq]

theorem mentions_iff {f : Entry} {g : String} :
    0 < pyFind (Flange.fileGroup g).toList f.name.toList 0 ↔ Mentions f g := by
  rw [pyFind_pos, Mentions, contains_infix]
  constructor
  · rintro ⟨h, k⟩; exact ⟨h, fun ⟨b, e⟩ => k ⟨b, e.symm⟩⟩
  · rintro ⟨h, k⟩; exact ⟨h, fun ⟨b, e⟩ => k ⟨b, e.symm⟩⟩

theorem mem_join {l : List String} {s : String} (h : s ∈ l) :
    s.toList <:+: (String.join l).toList := by
  have e : (String.join l).toList = (l.map String.toList).flatten := by
    rw [String.toList_join]; simp [List.flatMap]
  rw [e]
  obtain ⟨a, b, rfl⟩ := List.append_of_mem h
  exact ⟨(a.map String.toList).flatten, (b.map String.toList).flatten, by simp⟩

theorem mem_stressErrors {stress : List Entry} {grades : List String} {line : String} :
    line ∈ stressErrors dir stress grades ↔ ∃ f ∈ stress, ∃ g ∈ grades,
      ¬ HasColumn f.firstLine g ∧ line = missingMaterial dir g f.name := by
  unfold stressErrors
  simp only [List.mem_flatMap, List.mem_map, List.mem_filter, decide_eq_true_eq]
  constructor
  · rintro ⟨f, hf, g, ⟨hg, hn⟩, rfl⟩
    exact ⟨f, hf, g, hg, fun h => hn ((mem_columns _ _).mpr h), rfl⟩
  · rintro ⟨f, hf, g, hg, hn, rfl⟩
    exact ⟨f, hf, g, ⟨hg, fun h => hn ((mem_columns _ _).mp h)⟩, rfl⟩

theorem mem_groupErrors {flange : List Entry} {line : String}
    (hiter : ∀ l x, x ∈ iter l ↔ x ∈ l) :
    line ∈ groupErrors flange (iter (materials.map fun m => Flange.fileGroup m.2)) ↔
      ∃ m ∈ materials, (¬ ∃ f ∈ flange, Mentions f m.2) ∧ line = missingGroup (Flange.fileGroup m.2) := by
  unfold groupErrors
  simp only [List.mem_map, List.mem_filter, hiter, decide_not, Bool.not_eq_eq_eq_not, Bool.not_true,
    decide_eq_false_iff_not]
  constructor
  · rintro ⟨g, ⟨⟨m, hm, rfl⟩, hn⟩, rfl⟩
    refine ⟨m, hm, ?_, rfl⟩
    rintro ⟨f, hf, h⟩
    apply hn
    rw [List.any_eq_true]
    exact ⟨f, hf, decide_eq_true (mentions_iff.mpr h)⟩
  · rintro ⟨m, hm, hn, rfl⟩
    refine ⟨_, ⟨⟨m, hm, rfl⟩, ?_⟩, rfl⟩
    intro h
    rw [List.any_eq_true] at h
    obtain ⟨f, hf, h⟩ := h
    exact hn ⟨f, hf, mentions_iff.mp (of_decide_eq_true h)⟩

theorem stressB {f : Entry} : pyIn "stress" (lower f.name) = true ↔ IsStress f :=
  contains_iff.trans (contains_lower (by decide)).symm

theorem flangeB {f : Entry} : pyIn "flange" (lower f.name) = true ↔ IsFlange f :=
  contains_iff.trans (contains_lower (by decide)).symm

theorem weldedB {s : String} : pyIn "welded" (lower s) = true ↔ ContainsWord s "welded" :=
  contains_iff.trans (contains_lower (by decide)).symm

theorem seamlessB {s : String} : pyIn "seamless" (lower s) = true ↔ ContainsWord s "seamless" :=
  contains_iff.trans (contains_lower (by decide)).symm

/-! ### Properties -/

/-- `iter` enumerates a Python set: same elements, any order, any hashing. -/
def Enumerates (iter : List String → List String) : Prop := ∀ l x, x ∈ iter l ↔ x ∈ l

/-- C50: the check returns True exactly if a flange or stress file exists, every material has a column in
every stress file, and every group is mentioned by a flange file.  Missing from the property: both kinds
of files need not exist, see `C50_no_stress_file_violated`, and the flange file need not be the group's
own, see `C50_other_group_violated`. -/
theorem C50_returns_true_partial (hiter : Enumerates iter) :
    (checkMaterialsList dir files materials iter).2 = .ok true ↔
      (∃ f ∈ files, IsFlange f ∨ IsStress f) ∧
      (∀ f ∈ files, IsStress f → ∀ m ∈ materials, HasColumn f.firstLine m.1) ∧
      ∀ m ∈ materials, ∃ f ∈ files, IsFlange f ∧ Mentions f m.2 := by
  unfold checkMaterialsList
  simp only
  split
  · rename_i h
    simp only [List.append_eq_nil_iff, List.filter_eq_nil_iff, flangeB, stressB] at h
    simp only [reduceCtorEq, false_iff]
    rintro ⟨⟨f, hf, h1 | h1⟩, -⟩
    · exact h.1 f hf h1
    · exact h.2 f hf h1
  · rename_i h
    have hex : ∃ f ∈ files, IsFlange f ∨ IsStress f := by
      by_contra hc
      push Not at hc
      apply h
      simp only [List.append_eq_nil_iff, List.filter_eq_nil_iff, flangeB, stressB]
      exact ⟨fun f hf => (hc f hf).1, fun f hf => (hc f hf).2⟩
    split
    · rename_i he
      rw [List.append_eq_nil_iff, List.eq_nil_iff_forall_not_mem, List.eq_nil_iff_forall_not_mem] at he
      simp only [true_iff]
      refine ⟨hex, ?_, ?_⟩
      · intro f hf hs m hm
        by_contra hn
        exact he.1 _ (mem_stressErrors.mpr ⟨f, List.mem_filter.mpr ⟨hf, stressB.mpr hs⟩, m.1,
          List.mem_map.mpr ⟨m, hm, rfl⟩, hn, rfl⟩)
      · intro m hm
        by_contra hn
        refine he.2 _ ((mem_groupErrors hiter).mpr ⟨m, hm, ?_, rfl⟩)
        rintro ⟨f, hf, hme⟩
        obtain ⟨hf, hfl⟩ := List.mem_filter.mp hf
        exact hn ⟨f, hf, flangeB.mp hfl, hme⟩
    · rename_i he
      simp only [reduceCtorEq, false_iff]
      rintro ⟨-, h1, h2⟩
      apply he
      rw [List.append_eq_nil_iff, List.eq_nil_iff_forall_not_mem, List.eq_nil_iff_forall_not_mem]
      constructor
      · intro line hl
        obtain ⟨f, hf, g, hg, hn, -⟩ := mem_stressErrors.mp hl
        obtain ⟨hf, hs⟩ := List.mem_filter.mp hf
        obtain ⟨m, hm, rfl⟩ := List.mem_map.mp hg
        exact hn (h1 f hf (stressB.mp hs) m hm)
      · intro line hl
        obtain ⟨m, hm, hn, -⟩ := (mem_groupErrors hiter).mp hl
        obtain ⟨f, hf, hfl, hme⟩ := h2 m hm
        exact hn ⟨f, List.mem_filter.mpr ⟨hf, flangeB.mpr hfl⟩, hme⟩

/-- C50: it returns True or raises; without any flange or stress file FileNotFoundError, otherwise
ValueError. -/
theorem C50_otherwise_raises :
    ((¬ ∃ f ∈ files, IsFlange f ∨ IsStress f) →
      ∃ msg, (checkMaterialsList dir files materials iter).2 = .error (.fileNotFound msg)) ∧
    ((∃ f ∈ files, IsFlange f ∨ IsStress f) →
      (checkMaterialsList dir files materials iter).2 ≠ .ok true →
      IsValueError (checkMaterialsList dir files materials iter).2) := by
  unfold checkMaterialsList
  simp only
  constructor
  · intro h
    push Not at h
    rw [if_pos]
    · exact ⟨_, rfl⟩
    · simp only [List.append_eq_nil_iff, List.filter_eq_nil_iff, flangeB, stressB]
      exact ⟨fun f hf => (h f hf).1, fun f hf => (h f hf).2⟩
  · rintro ⟨f, hf, h⟩
    rw [if_neg]
    · simp only
      split
      · intro h; simp at h
      · intro _; exact ⟨_, rfl⟩
    · simp only [List.append_eq_nil_iff, List.filter_eq_nil_iff, flangeB, stressB]
      rintro ⟨h1, h2⟩
      rcases h with h | h
      · exact h1 f hf h
      · exact h2 f hf h

theorem error_of_line {line : String}
    (h : line ∈ stressErrors dir (files.filter fun f => pyIn "stress" (lower f.name)) (materials.map (·.1)) ++
      groupErrors (files.filter fun f => pyIn "flange" (lower f.name))
        (iter (materials.map fun m => Flange.fileGroup m.2)))
    (hex : ∃ f ∈ files, IsFlange f ∨ IsStress f) :
    ∃ msg, (checkMaterialsList dir files materials iter).2 = .error (.valueError msg) ∧
      line.toList <:+: msg.toList := by
  unfold checkMaterialsList
  simp only
  rw [if_neg]
  · simp only
    rw [if_neg (List.ne_nil_of_mem h)]
    refine ⟨_, rfl, ?_⟩
    rw [String.toList_append]
    exact (mem_join h).trans (List.suffix_append _ _).isInfix
  · obtain ⟨f, hf, h⟩ := hex
    simp only [List.append_eq_nil_iff, List.filter_eq_nil_iff, flangeB, stressB]
    rintro ⟨h1, h2⟩
    rcases h with h | h
    · exact h1 f hf h
    · exact h2 f hf h

/-- C50: the ValueError names every material without a column, with the file it is missing from, and
every group without a flange file. -/
theorem C50_names_every_missing_item (hiter : Enumerates iter) :
    (∀ f ∈ files, IsStress f → ∀ m ∈ materials, ¬ HasColumn f.firstLine m.1 →
      ∃ msg, (checkMaterialsList dir files materials iter).2 = .error (.valueError msg) ∧
        Contains msg ("Material " ++ m.1 ++ " not found in " ++ dir ++ "/" ++ f.name)) ∧
    ((∃ f ∈ files, IsFlange f ∨ IsStress f) →
      ∀ m ∈ materials, (¬ ∃ f ∈ files, IsFlange f ∧ Mentions f m.2) →
      ∃ msg, (checkMaterialsList dir files materials iter).2 = .error (.valueError msg) ∧
        Contains msg ("material group " ++ Flange.fileGroup m.2 ++ " not found")) := by
  constructor
  · intro f hf hs m hm hn
    obtain ⟨msg, e, h⟩ := error_of_line (dir := dir) (files := files) (materials := materials) (iter := iter)
      (List.mem_append_left _ (mem_stressErrors.mpr ⟨f, List.mem_filter.mpr ⟨hf, stressB.mpr hs⟩, m.1,
          List.mem_map.mpr ⟨m, hm, rfl⟩, hn, rfl⟩)) ⟨f, hf, Or.inr hs⟩
    refine ⟨msg, e, contains_infix.mpr (List.IsInfix.trans ?_ h)⟩
    unfold missingMaterial
    rw [String.toList_append (t := "\n")]
    exact (List.prefix_append _ _).isInfix
  · intro hex m hm hn
    obtain ⟨msg, e, h⟩ := error_of_line (dir := dir) (files := files) (materials := materials) (iter := iter)
      (List.mem_append_right _ ((mem_groupErrors hiter).mpr ⟨m, hm, by
        rintro ⟨f, hf, hme⟩
        obtain ⟨hf, hfl⟩ := List.mem_filter.mp hf
        exact hn ⟨f, hf, flangeB.mp hfl, hme⟩, rfl⟩)) hex
    refine ⟨msg, e, contains_infix.mpr (List.IsInfix.trans ?_ h)⟩
    unfold missingGroup
    rw [String.toList_append (t := "\n")]
    exact (List.prefix_append _ _).isInfix

/-- C50: a warning for exactly the stress files that say neither "welded" nor "seamless". -/
theorem C50_warns (w : String) : w ∈ (checkMaterialsList dir files materials iter).1 ↔
    ∃ f ∈ files, IsStress f ∧ ¬ ContainsWord f.name "welded" ∧
      ¬ ContainsWord f.name "seamless" ∧
      w = f.name ++ " does not indicate whether it is welded or seamless" := by
  unfold checkMaterialsList
  simp only
  split
  · rename_i h
    simp only [List.append_eq_nil_iff, List.filter_eq_nil_iff, flangeB, stressB] at h
    simp only [List.not_mem_nil, false_iff]
    rintro ⟨f, hf, hs, -⟩
    exact h.2 f hf hs
  · simp only [checkWarnings, List.mem_map, List.mem_filter, decide_eq_true_eq, stressB, weldedB, seamlessB]
    constructor
    · rintro ⟨f, ⟨⟨hf, hs⟩, h1, h2⟩, rfl⟩; exact ⟨f, hf, hs, h1, h2, rfl⟩
    · rintro ⟨f, hf, hs, h1, h2, rfl⟩; exact ⟨f, ⟨⟨hf, hs⟩, h1, h2⟩, rfl⟩

/-- C50 is false in one clause: without any stress file the check still returns True. -/
theorem C50_no_stress_file_violated (hiter : Enumerates iter) :
    let files : List Entry := [⟨"flange_ratings_group_2_1.csv", ""⟩]
    (checkMaterialsList dir files [("304", "2.1")] iter).2 = .ok true ∧ ¬ ∃ f ∈ files, IsStress f := by
  intro files
  have hs : ¬ ∃ f ∈ files, IsStress f := by
    rintro ⟨f, hf, h⟩
    rw [List.mem_singleton] at hf
    subst hf
    rw [← stressB] at h
    revert h; decide +kernel
  refine ⟨(C50_returns_true_partial hiter).mpr ⟨⟨_, List.mem_singleton.mpr rfl, Or.inl ?_⟩, ?_, ?_⟩, hs⟩
  · rw [← flangeB]; decide +kernel
  · intro f hf h; exact absurd ⟨f, hf, h⟩ hs
  · intro m hm
    rw [List.mem_singleton] at hm
    subst hm
    refine ⟨_, List.mem_singleton.mpr rfl, ?_, ?_⟩
    · rw [← flangeB]; decide +kernel
    · rw [← mentions_iff]; decide +kernel

/-- C50 is false in another clause: the rating file of group 2.10 counts as one of group 2.1, so the
check returns True although the file that the rating loader will open does not exist. -/
theorem C50_other_group_violated (hiter : Enumerates iter) :
    let files : List Entry := [⟨"ASME_B16_5_flange_ratings_group_2_10.csv", ""⟩,
      ⟨"stress_limits_welded.csv", "Temp,304\n"⟩]
    (checkMaterialsList dir files [("304", "2.1")] iter).2 = .ok true ∧
      Flange.fileName "2.1" ∉ files.map (·.name) := by
  intro files
  constructor
  · refine (C50_returns_true_partial hiter).mpr ⟨⟨_, List.mem_cons_self, Or.inl ?_⟩, ?_, ?_⟩
    · rw [← flangeB]; decide +kernel
    · have : ∀ f ∈ files, pyIn "stress" (lower f.name) → ∀ m ∈ [("304", "2.1")], m.1 ∈ columns f.firstLine := by
        decide +kernel
      intro f hf hs m hm
      exact (mem_columns _ _).mp (this f hf (stressB.mpr hs) m hm)
    · intro m hm
      rw [List.mem_singleton] at hm
      subst hm
      refine ⟨_, List.mem_cons_self, ?_, ?_⟩
      · rw [← flangeB]; decide +kernel
      · rw [← mentions_iff]; decide +kernel
  · decide +kernel

/-- The shipped data pass, without warnings, so the package can be imported. -/
theorem C50_shipped_data_pass (hiter : Enumerates iter) :
    checkMaterialsList dir shippedDir (Data.materialRows.map fun r => (r.1, r.2.1)) iter =
      ([], .ok true) := by
  apply Prod.ext
  · refine List.eq_nil_iff_forall_not_mem.mpr fun w hw => ?_
    obtain ⟨f, hf, hs, h1, h2, -⟩ := (C50_warns w).mp hw
    have : ∀ f ∈ shippedDir, pyIn "stress" (lower f.name) →
        pyIn "welded" (lower f.name) ∨ pyIn "seamless" (lower f.name) := by decide +kernel
    rcases this f hf (stressB.mpr hs) with h | h
    · exact h1 (weldedB.mp h)
    · exact h2 (seamlessB.mp h)
  · refine (C50_returns_true_partial hiter).mpr ⟨?_, ?_, ?_⟩
    · have : ∃ f ∈ shippedDir, pyIn "flange" (lower f.name) := by decide +kernel
      obtain ⟨f, hf, h⟩ := this
      exact ⟨f, hf, Or.inl (flangeB.mp h)⟩
    · have : ∀ f ∈ shippedDir, pyIn "stress" (lower f.name) →
          ∀ m ∈ Data.materialRows.map (fun r => (r.1, r.2.1)), m.1 ∈ columns f.firstLine := by decide +kernel
      intro f hf hs m hm
      exact (mem_columns _ _).mp (this f hf (stressB.mpr hs) m hm)
    · have : ∀ m ∈ Data.materialRows.map (fun r => (r.1, r.2.1)), ∃ f ∈ shippedDir,
          pyIn "flange" (lower f.name) ∧ 0 < pyFind (Flange.fileGroup m.2).toList f.name.toList 0 := by
        decide +kernel
      intro m hm
      obtain ⟨f, hf, h, k⟩ := this m hm
      exact ⟨f, hf, flangeB.mp h, mentions_iff.mp k⟩

/-- A missing column is reported: hypotheses of `C50_names_every_missing_item` are met. -/
example : IsStress ⟨"stress_welded.csv", " Temp,304,304H \n"⟩ ∧
    HasColumn " Temp,304,304H \n" "304H" ∧ ¬ HasColumn " Temp,304,304H \n" "316" ∧
    ¬ HasColumn " Temp,304,304H \n" "Temp" := by
  rw [← stressB, ← mem_columns, ← mem_columns, ← mem_columns]
  decide +kernel

/-- Every list enumerates itself. -/
example : Enumerates id := fun _ _ => Iff.rfl

end Pypbomb.Materials
