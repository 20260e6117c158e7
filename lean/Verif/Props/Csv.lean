/-
C89: the tables a data directory is read into, for arbitrary file contents.
-/
import Mathlib.Tactic.IntervalCases
import Verif.Props.Import

namespace Pypbomb.Import
open Csv Materials

/-! ### Specification -/

/-- A line whose fields, separated by commas, are `fs`. -/
def line (fs : List (List Char)) : List Char := List.intercalate [','] fs

/-- A digit as a character. -/
def digit (d : Fin 10) : Char := Char.ofNat (48 + d)

/-- The number written with these digits. -/
def numeral (a : List (Fin 10)) : ℕ := a.foldl (fun (n : ℕ) (d : Fin 10) => 10 * n + (d : ℕ)) 0

/-- `t` is `a` or `a.b` in decimal digits, and denotes `q`. -/
inductive Unsigned : List Char → ℚ → Prop
  | int (a : List (Fin 10)) : a ≠ [] → Unsigned (a.map digit) (numeral a)
  | dec (a b : List (Fin 10)) : a ≠ [] ∨ b ≠ [] →
      Unsigned (a.map digit ++ '.' :: b.map digit) (numeral a + numeral b / 10 ^ b.length)

/-- `t` is a decimal number, with or without a sign. -/
inductive Denotes : List Char → ℚ → Prop
  | plain {t q} : Unsigned t q → Denotes t q
  | plus {t q} : Unsigned t q → Denotes ('+' :: t) q
  | minus {t q} : Unsigned t q → Denotes ('-' :: t) (-q)

/-- The texts that pandas documents as NaN. -/
def Missing (t : List Char) : Prop :=
  String.ofList t ∈ ["", "#N/A", "#N/A N/A", "#NA", "-1.#IND", "-1.#QNAN", "-NaN", "-nan", "1.#IND", "1.#QNAN",
    "<NA>", "N/A", "NA", "NULL", "NaN", "n/a", "nan", "null"]

/-- What a field stands for: NaN for the empty field and for the spellings of NaN, the number if it is one and its column
has nothing but numbers and NaN, the text otherwise. -/
inductive FieldIs (numeric : Prop) (t : List Char) : Cell → Prop
  | nan : Missing t → FieldIs numeric t .nan
  | num {q} : ¬ Missing t → numeric → Denotes t q → FieldIs numeric t (.num q t)
  | str : ¬ Missing t → ¬ numeric → FieldIs numeric t (.str (String.ofList t))

/-- The model's list is this list. -/
theorem mem_naWords {t : List Char} : t ∈ naWords ↔ Missing t := by
  unfold naWords Missing
  rw [List.mem_map]
  constructor
  · rintro ⟨s, hs, rfl⟩; rwa [String.ofList_toList]
  · intro h; exact ⟨_, h, String.toList_ofList⟩

/-! ### Separators -/

theorem splitOnChar_append {c : Char} {f : List Char} (hf : c ∉ f) (l : List Char) :
    splitOnChar c (f ++ c :: l) = f :: splitOnChar c l := by
  induction f with
  | nil => simp [splitOnChar]
  | cons x f ih =>
    simp only [List.mem_cons, not_or] at hf
    simp only [List.cons_append, splitOnChar, if_neg (Ne.symm hf.1), ih hf.2]

theorem splitOnChar_self {c : Char} {f : List Char} (hf : c ∉ f) : splitOnChar c f = [f] := by
  induction f with
  | nil => rfl
  | cons x f ih =>
    simp only [List.mem_cons, not_or] at hf
    simp only [splitOnChar, if_neg (Ne.symm hf.1), ih hf.2]

theorem splitOnChar_intercalate {c : Char} {fs : List (List Char)} (h0 : fs ≠ []) (h : ∀ f ∈ fs, c ∉ f) :
    splitOnChar c (List.intercalate [c] fs) = fs := by
  induction fs with
  | nil => exact absurd rfl h0
  | cons f fs ih =>
    cases fs with
    | nil =>
      have : List.intercalate [c] [f] = f := by simp [List.intercalate]
      rw [this]
      exact splitOnChar_self (h f (by simp))
    | cons g gs =>
      have : List.intercalate [c] (f :: g :: gs) = f ++ c :: List.intercalate [c] (g :: gs) := by
        simp [List.intercalate]
      rw [this, splitOnChar_append (h f (by simp)), ih (by simp) fun x hx => h x (List.mem_cons_of_mem _ hx)]

theorem splitOnChar_spec (c : Char) (l : List Char) :
    List.intercalate [c] (splitOnChar c l) = l ∧ ∀ f ∈ splitOnChar c l, c ∉ f := by
  induction l with
  | nil => simp [splitOnChar, List.intercalate]
  | cons x xs ih =>
    simp only [splitOnChar]
    split
    · rename_i h
      subst h
      obtain ⟨t, ht⟩ := splitOnChar_head x xs
      refine ⟨?_, ?_⟩
      · rw [ht] at ih ⊢
        have : List.intercalate [x] ([] :: xs.takeWhile (· ≠ x) :: t) =
            x :: List.intercalate [x] (xs.takeWhile (· ≠ x) :: t) := by simp [List.intercalate]
        rw [this, ih.1]
      · intro f hf
        rcases List.mem_cons.mp hf with rfl | hf
        · simp
        · exact ih.2 f hf
    · rename_i h
      split
      · rename_i e; exact absurd e (splitOnChar_ne _ _)
      · rename_i f fs e
        rw [e] at ih
        refine ⟨?_, ?_⟩
        · have : List.intercalate [c] ((x :: f) :: fs) = x :: List.intercalate [c] (f :: fs) := by
            cases fs <;> simp [List.intercalate]
          rw [this, ih.1]
        · intro g hg
          rcases List.mem_cons.mp hg with rfl | hg
          · rw [List.mem_cons, not_or]
            exact ⟨Ne.symm h, ih.2 f (by simp)⟩
          · exact ih.2 g (List.mem_cons_of_mem _ hg)

theorem splitOnChar_iff {c : Char} {l : List Char} {fs : List (List Char)} :
    splitOnChar c l = fs ↔ fs ≠ [] ∧ l = List.intercalate [c] fs ∧ ∀ f ∈ fs, c ∉ f := by
  constructor
  · rintro rfl
    exact ⟨splitOnChar_ne _ _, (splitOnChar_spec c l).1.symm, (splitOnChar_spec c l).2⟩
  · rintro ⟨h0, rfl, h⟩
    exact splitOnChar_intercalate h0 h

/-! ### Numbers -/

theorem digit_toNat (d : Fin 10) : (digit d).toNat = 48 + d := by
  revert d; decide

theorem digit_isDigit (d : Fin 10) : (digit d).isDigit = true := by
  revert d; decide

theorem digit_ne (d : Fin 10) : digit d ≠ '.' ∧ digit d ≠ '-' ∧ digit d ≠ '+' ∧ digit d ≠ ',' := by
  revert d; decide

theorem isDigit_iff {c : Char} : c.isDigit = true ↔ ∃ d, c = digit d := by
  constructor
  · intro h
    have h1 : 48 ≤ c.toNat ∧ c.toNat ≤ 57 := by
      simp only [Char.isDigit, Bool.and_eq_true, decide_eq_true_eq] at h
      exact ⟨by simpa using UInt32.le_iff_toNat_le.mp h.1, by simpa using UInt32.le_iff_toNat_le.mp h.2⟩
    refine ⟨⟨c.toNat - 48, by omega⟩, ?_⟩
    unfold digit
    rw [show 48 + ((⟨c.toNat - 48, by omega⟩ : Fin 10) : ℕ) = c.toNat by simp only; omega, Char.ofNat_toNat]
  · rintro ⟨d, rfl⟩
    exact digit_isDigit d

theorem all_digits {l : List Char} : l.all Char.isDigit = true ↔ ∃ a : List (Fin 10), l = a.map digit := by
  induction l with
  | nil => simp
  | cons c l ih =>
    rw [List.all_cons, Bool.and_eq_true, ih, isDigit_iff]
    constructor
    · rintro ⟨⟨d, rfl⟩, a, rfl⟩
      exact ⟨d :: a, rfl⟩
    · rintro ⟨a, h⟩
      cases a with
      | nil => cases h
      | cons d a =>
        rw [List.map_cons, List.cons.injEq] at h
        exact ⟨⟨d, h.1⟩, a, h.2⟩

theorem foldl_digits (a : List (Fin 10)) (n : ℕ) :
    (a.map digit).foldl (fun a c => 10 * a + (c.toNat - '0'.toNat)) n = a.foldl (fun (n : ℕ) (d : Fin 10) => 10 * n + (d : ℕ)) n := by
  induction a generalizing n with
  | nil => rfl
  | cons d a ih =>
    have e : (digit d).toNat - '0'.toNat = d := by rw [digit_toNat]; exact Nat.add_sub_cancel_left ..
    simp only [List.map_cons, List.foldl_cons, ih, e]

theorem parseDigits_iff {l : List Char} {n : ℕ} :
    parseDigits l = some n ↔ ∃ a : List (Fin 10), a ≠ [] ∧ l = a.map digit ∧ n = numeral a := by
  unfold parseDigits
  constructor
  · intro h
    split at h
    · rename_i hc
      obtain ⟨a, rfl⟩ := all_digits.mp hc.2
      rw [foldl_digits, Option.some.injEq] at h
      exact ⟨a, by simpa using hc.1, rfl, h.symm⟩
    · cases h
  · rintro ⟨a, h0, rfl, rfl⟩
    rw [if_pos ⟨by simpa using h0, all_digits.mpr ⟨a, rfl⟩⟩, foldl_digits]
    rfl

theorem digits_iff {l : List Char} {n : ℕ} :
    digits l = some n ↔ ∃ a : List (Fin 10), l = a.map digit ∧ n = numeral a := by
  unfold digits
  split
  · rename_i h
    subst h
    constructor
    · intro h; cases h; exact ⟨[], rfl, rfl⟩
    · rintro ⟨a, h, rfl⟩
      obtain rfl : a = [] := by simpa using h.symm
      rfl
  · rename_i h
    rw [parseDigits_iff]
    constructor
    · rintro ⟨a, -, h1, h2⟩; exact ⟨a, h1, h2⟩
    · rintro ⟨a, h1, h2⟩; exact ⟨a, by rintro rfl; exact h h1, h1, h2⟩

theorem dot_notin (a : List (Fin 10)) : '.' ∉ a.map digit := by
  intro h
  obtain ⟨d, -, hd⟩ := List.mem_map.mp h
  exact (digit_ne d).1 hd

theorem parseUnsigned_iff {l : List Char} {q : ℚ} : parseUnsigned l = some q ↔ Unsigned l q := by
  constructor
  · intro h
    unfold parseUnsigned at h
    split at h
    · rename_i a e
      obtain ⟨-, rfl, -⟩ := splitOnChar_iff.mp e
      obtain ⟨n, hn, rfl⟩ := Option.map_eq_some_iff.mp h
      obtain ⟨a, h0, rfl, rfl⟩ := parseDigits_iff.mp hn
      have : List.intercalate ['.'] [a.map digit] = a.map digit := by simp [List.intercalate]
      rw [this]
      exact .int a h0
    · rename_i a b e
      obtain ⟨-, rfl, -⟩ := splitOnChar_iff.mp e
      split at h
      · cases h
      · rename_i hne
        split at h
        · rename_i n m hn hm
          obtain ⟨a, rfl, rfl⟩ := digits_iff.mp hn
          obtain ⟨b, rfl, rfl⟩ := digits_iff.mp hm
          cases h
          have : List.intercalate ['.'] [a.map digit, b.map digit] = a.map digit ++ '.' :: b.map digit := by
            simp [List.intercalate]
          rw [this, List.length_map]
          refine .dec a b ?_
          by_contra hc
          rw [not_or, not_not, not_not] at hc
          exact hne (by simp [hc])
        · cases h
    · cases h
  · intro h
    unfold parseUnsigned
    cases h with
    | int a h0 =>
      rw [splitOnChar_self (dot_notin a)]
      simp only [parseDigits_iff.mpr ⟨a, h0, rfl, rfl⟩, Option.map_some]
    | dec a b h0 =>
      rw [splitOnChar_append (dot_notin a), splitOnChar_self (dot_notin b)]
      simp only
      rw [if_neg (by rw [not_and_or]; simpa using h0), digits_iff.mpr ⟨a, rfl, rfl⟩, digits_iff.mpr ⟨b, rfl, rfl⟩]
      simp

theorem unsigned_head {t : List Char} {q : ℚ} (h : Unsigned t q) : ∀ l, t ≠ '-' :: l ∧ t ≠ '+' :: l := by
  intro l
  cases h with
  | int a h0 =>
    cases a with
    | nil => exact absurd rfl h0
    | cons d a =>
      simp only [List.map_cons, ne_eq, List.cons.injEq, not_and]
      exact ⟨fun e => absurd e (digit_ne d).2.1, fun e => absurd e (digit_ne d).2.2.1⟩
  | dec a b h0 =>
    cases a with
    | nil => simp
    | cons d a =>
      simp only [List.map_cons, List.cons_append, ne_eq, List.cons.injEq, not_and]
      exact ⟨fun e => absurd e (digit_ne d).2.1, fun e => absurd e (digit_ne d).2.2.1⟩

theorem parseNum_iff {t : List Char} {q : ℚ} : parseNum t = some q ↔ Denotes t q := by
  unfold parseNum
  constructor
  · intro h
    split at h
    · obtain ⟨x, hx, rfl⟩ := Option.map_eq_some_iff.mp h
      exact .minus (parseUnsigned_iff.mp hx)
    · exact .plus (parseUnsigned_iff.mp h)
    · exact .plain (parseUnsigned_iff.mp h)
  · intro h
    cases h with
    | plain h =>
      split
      · exact absurd rfl (unsigned_head h _).1
      · exact absurd rfl (unsigned_head h _).2
      · exact parseUnsigned_iff.mpr h
    | plus h => exact parseUnsigned_iff.mpr h
    | minus h =>
      simp only [parseUnsigned_iff.mpr h, Option.map_some]

/-! ### C89: tables -/

theorem cellOf_spec (numeric : Bool) (t : List Char)
    (h : numeric = true → Missing t ∨ ∃ q, Denotes t q) : FieldIs (numeric = true) t (cellOf numeric t) := by
  unfold cellOf
  split
  · rename_i hna; exact .nan (mem_naWords.mp hna)
  · rename_i hna
    rw [mem_naWords] at hna
    split
    · rename_i hn
      obtain ⟨q, hq⟩ := (h hn).resolve_left hna
      rw [parseNum_iff.mpr hq]
      exact .num hna hn hq
    · rename_i hn; exact .str hna hn

theorem numericCol_iff {rows : List (List (List Char))} {j : ℕ} :
    numericCol rows j = true ↔ ∀ r ∈ rows, Missing (r.getD j []) ∨ ∃ q, Denotes (r.getD j []) q := by
  unfold numericCol
  rw [List.all_eq_true]
  refine forall₂_congr fun r _ => ?_
  rw [Bool.or_eq_true, decide_eq_true_iff, Option.isSome_iff_exists]
  simp only [parseNum_iff, mem_naWords]

theorem FieldIs.congr {p q : Prop} (h : p ↔ q) {t : List Char} {c : Cell} (hc : FieldIs p t c) : FieldIs q t c := by
  rwa [← propext h]

theorem fields_line {fs : List (List Char)} (h0 : fs ≠ []) (h : ∀ f ∈ fs, ',' ∉ f) : fields (line fs) = fs :=
  splitOnChar_intercalate h0 h

theorem pad_getD {n j : ℕ} {l : List (List Char)} : (pad n l).getD j [] = l.getD j [] := by
  unfold pad
  simp only [List.getD_eq_getElem?_getD]
  by_cases hj : j < l.length
  · rw [List.getElem?_append_left hj]
  · rw [List.getElem?_append_right (by omega), List.getElem?_eq_none (by omega : l.length ≤ j), List.getElem?_replicate]
    split <;> rfl

section
variable {lines : Lines} {header : List (List Char)} {rows : List (List (List Char))}

/-- A file with header `header` and rows `rows`, and blank lines anywhere. -/
structure FileOf (lines : Lines) (header : List (List Char)) (rows : List (List (List Char))) : Prop where
  lines : (lines.filter fun l => ¬ blank l) = line header :: rows.map line
  header : header ≠ [] ∧ ∀ f ∈ header, ',' ∉ f
  rows : ∀ r ∈ rows, r ≠ [] ∧ ∀ f ∈ r, ',' ∉ f

/-- Every file that has a line that is not blank is of this form, in exactly one way. -/
theorem fileOf_unique (h : ∃ l ∈ lines, blank l = false) : ∃! hr : List (List Char) × List (List (List Char)),
    FileOf lines hr.1 hr.2 := by
  obtain ⟨l, hl, hb⟩ := h
  cases e : lines.filter fun l => ¬ blank l with
  | nil =>
    rw [List.filter_eq_nil_iff] at e
    exact absurd (by simp [hb]) (e l hl)
  | cons h ls =>
    refine ⟨(fields h, ls.map fields), ⟨?_, ⟨splitOnChar_ne _ _, (splitOnChar_spec _ _).2⟩, ?_⟩, ?_⟩
    · have hf : ∀ l, line (fields l) = l := fun l => (splitOnChar_spec ',' l).1
      rw [e, hf, List.map_map]
      congr 1
      exact (List.map_id ls).symm.trans (List.map_congr_left fun l _ => (hf l).symm)
    · intro r hr
      obtain ⟨l, -, rfl⟩ := List.mem_map.mp hr
      exact ⟨splitOnChar_ne _ _, (splitOnChar_spec _ _).2⟩
    · rintro ⟨header, rows⟩ ⟨h1, h2, h3⟩
      rw [e, List.cons.injEq] at h1
      obtain ⟨rfl, rfl⟩ := h1
      rw [fields_line h2.1 h2.2, List.map_map]
      congr 1
      refine (List.map_id rows).symm.trans (List.map_congr_left fun r hr => ?_)
      exact (fields_line (h3 r hr).1 (h3 r hr).2).symm

theorem readCsv_file (h : FileOf lines header rows) : readCsv lines =
    if rows.any fun r => decide (header.length < r.length) then .error .parserError
    else .ok ⟨header.map String.ofList, typedRows header.length (rows.map (pad header.length))⟩ := by
  have h1 := h.lines
  unfold readCsv
  rw [h1]
  simp only [fields_line h.header.1 h.header.2]
  have e : (rows.map line).any (fun l => decide (header.length < (fields l).length)) =
      rows.any fun r => decide (header.length < r.length) := by
    rw [List.any_map]
    rw [Bool.eq_iff_iff, List.any_eq_true, List.any_eq_true]
    refine exists_congr fun r => and_congr_right fun hr => ?_
    rw [Function.comp_apply, fields_line (h.rows r hr).1 (h.rows r hr).2]
  rw [e, List.map_map]
  have e' : rows.map ((fun l => pad header.length (fields l)) ∘ line) = rows.map (pad header.length) :=
    List.map_congr_left fun r hr => by rw [Function.comp_apply, fields_line (h.rows r hr).1 (h.rows r hr).2]
  rw [e']

/-- C89: a file with a row of more fields than the header is refused. -/
theorem C89_too_many_fields (h : FileOf lines header rows) (hr : ∃ r ∈ rows, header.length < r.length) :
    readCsv lines = .error .parserError := by
  rw [readCsv_file h, if_pos]
  obtain ⟨r, h1, h2⟩ := hr
  exact List.any_eq_true.mpr ⟨r, h1, decide_eq_true h2⟩

/-- C89: every other file is read into a table with the columns of its header and one row per line; the cell in column
`j` stands for the `j`-th field of its line, or NaN if the line is too short. -/
theorem C89_table (h : FileOf lines header rows) (hr : ∀ r ∈ rows, r.length ≤ header.length) :
    ∃ f, readCsv lines = .ok f ∧ f.header = header.map String.ofList ∧ f.rows.length = rows.length ∧
      ∀ (i : ℕ) (row : List Cell) (r : List (List Char)), f.rows[i]? = some row → rows[i]? = some r →
        row.length = header.length ∧
        ∀ (j : ℕ) (c : Cell), row[j]? = some c →
          FieldIs (∀ r ∈ rows, Missing (r.getD j []) ∨ ∃ q, Denotes (r.getD j []) q) (r.getD j []) c := by
  refine ⟨_, (readCsv_file h).trans (if_neg ?_), rfl, by simp [typedRows], fun i row r hi hi' => ?_⟩
  · rw [List.any_eq_true]
    rintro ⟨r, h1, h2⟩
    have := hr r h1
    have := of_decide_eq_true h2
    omega
  · have hlen : (pad header.length r).length = header.length := by
      have := hr r (List.mem_of_getElem? hi')
      unfold pad
      rw [List.length_append, List.length_replicate]
      omega
    simp only [typedRows, List.map_map, List.getElem?_map, hi', Option.map_some, Function.comp_apply,
      Option.some.injEq] at hi
    subst hi
    refine ⟨by simp [hlen], fun j c hc => ?_⟩
    rw [List.getElem?_zipWith_eq_some] at hc
    obtain ⟨b, t, hb, ht, rfl⟩ := hc
    rw [List.getElem?_map, Option.map_eq_some_iff] at hb
    obtain ⟨j', hj', rfl⟩ := hb
    obtain ⟨hlt, rfl⟩ := List.getElem?_eq_some_iff.mp hj'
    rw [List.getElem_range] at *
    have hcol : numericCol (rows.map (pad header.length)) j = true ↔
        ∀ r ∈ rows, Missing (r.getD j []) ∨ ∃ q, Denotes (r.getD j []) q := by
      rw [numericCol_iff]
      simp only [List.forall_mem_map, pad_getD]
    have hd : t = r.getD j [] := by
      rw [← pad_getD (n := header.length), List.getD_eq_getElem?_getD, ht]
      rfl
    rw [← hd]
    refine FieldIs.congr hcol (cellOf_spec _ _ fun hn => ?_)
    rw [hd]
    exact hcol.mp hn r (List.mem_of_getElem? hi')

end

/-- C89: a table that was read comes from a file of this form without overlong rows. -/
theorem C89_origin {lines : Lines} {f : Frame} (h : readCsv lines = .ok f) :
    ∃ header rows, FileOf lines header rows ∧ ∀ r ∈ rows, r.length ≤ header.length := by
  have hne : ∃ l ∈ lines, blank l = false := by
    by_contra hc
    have e : (lines.filter fun l => ¬ blank l) = [] := by
      rw [List.filter_eq_nil_iff]
      intro l hl
      have : blank l = true := by
        cases hb : blank l with
        | true => rfl
        | false => exact absurd ⟨l, hl, hb⟩ hc
      simp [this]
    simp only [readCsv, e] at h
    cases h
  obtain ⟨⟨header, rows⟩, hf, -⟩ := fileOf_unique hne
  refine ⟨header, rows, hf, fun r hr => ?_⟩
  by_contra hlt
  rw [C89_too_many_fields hf ⟨r, hr, not_le.mp hlt⟩] at h
  cases h

/-- C89: after a successful import the tables are the files of the directory, each read as `C89_table` says. -/
theorem C89_import {u : ℕ} {disk : Disk} {listing : List String} {iter : List String → List String} {T : Tables}
    (h : importTube u disk listing iter = .ok T) :
    ∀ nf ∈ [("ASME_B31_1_stress_limits_welded.csv", T.welded), ("ASME_B31_1_stress_limits_seamless.csv", T.seamless),
        ("pipe_schedules.csv", T.pipes), ("materials_list.csv", T.materials.frame),
        ("ANSI_inch_internal_thread.csv", T.internal), ("ANSI_inch_external_thread.csv", T.external)],
      ∃ lines header rows, disk nf.1 = some lines ∧ FileOf lines header rows ∧
        (∀ r ∈ rows, r.length ≤ header.length) ∧ readCsv lines = .ok nf.2 := by
  have hr : ∀ {n : String} {f : Frame}, readFile disk n = .ok f →
      ∃ lines header rows, disk n = some lines ∧ FileOf lines header rows ∧
        (∀ r ∈ rows, r.length ≤ header.length) ∧ readCsv lines = .ok f := by
    intro n f hf
    unfold readFile at hf
    split at hf
    · cases hf
    · rename_i l hl
      obtain ⟨header, rows, h1, h2⟩ := C89_origin hf
      exact ⟨l, header, rows, hl, h1, h2, hf⟩
  unfold importTube at h
  simp only [bind_eq_ok] at h
  obtain ⟨w, hw, s, hs, p, hp, m, hm, b, hb, fl, -, i, hi, e, he, hT⟩ := h
  cases hT
  have hmm : readFile disk "materials_list.csv" = .ok m.frame := by
    unfold collectTubeMaterials readMaterials at hm
    simp only [bind_eq_ok] at hm
    obtain ⟨f, hf, e, -, d, -, hm⟩ := hm
    cases hm
    unfold readFile
    cases hd : disk "materials_list.csv" with
    | none => rw [hd] at hf; cases hf
    | some l =>
      rw [hd] at hf
      simp only at hf ⊢
      split at hf
      · cases hf
      · exact hf
  simp only [List.mem_cons, List.not_mem_nil, or_false]
  rintro nf (rfl | rfl | rfl | rfl | rfl | rfl)
  · exact hr hw
  · exact hr hs
  · exact hr hp
  · exact hr hmm
  · exact hr hi
  · exact hr he

/-- C89: pressure ratings are converted cell by cell: whatever else is in the column, a field that is a number is that
number, and any other field is NaN. -/
theorem C89_rating_cell {numeric : Prop} {t : List Char} {c : Cell} (h : FieldIs numeric t c) (q : ℚ) :
    coerce c = some (q : ℝ) ↔ ¬ Missing t ∧ Denotes t q := by
  have inj : ∀ {a b : ℚ}, Denotes t a → Denotes t b → a = b := by
    intro a b ha hb
    have := (parseNum_iff.mpr ha).symm.trans (parseNum_iff.mpr hb)
    exact Option.some.inj this
  cases h with
  | nan h => simp [coerce, h]
  | num h hn hd =>
    simp only [coerce, Option.some.injEq, Rat.cast_inj]
    exact ⟨fun e => ⟨h, e ▸ hd⟩, fun ⟨_, hq⟩ => inj hd hq⟩
  | str h hn =>
    simp only [coerce, String.toList_ofList, Option.map_eq_some_iff, parseNum_iff]
    constructor
    · rintro ⟨a, ha, e⟩
      rw [Rat.cast_inj] at e
      exact ⟨h, e ▸ ha⟩
    · rintro ⟨-, hq⟩; exact ⟨q, hq, rfl⟩

/-! ### C89: names of grades and groups -/

/-- No superfluous zero in front. -/
def NoLeadingZero (a : List (Fin 10)) : Prop := a = [0] ∨ ∃ d l, a = d :: l ∧ d ≠ 0

/-- No superfluous zero at the end. -/
def NoTrailingZero (b : List (Fin 10)) : Prop := b = [0] ∨ ∃ d l, b = l ++ [d] ∧ d ≠ 0

theorem digit_zero {d : Fin 10} : digit d = '0' ↔ d = 0 := by
  revert d; decide

theorem trimInt_digits {a : List (Fin 10)} (h : NoLeadingZero a) : trimInt (a.map digit) = a.map digit := by
  rcases h with rfl | ⟨d, l, rfl, hd⟩
  · rfl
  · unfold trimInt
    rw [List.map_cons, List.dropWhile_cons_of_neg (by simpa [digit_zero] using hd)]

theorem trimFrac_digits {b : List (Fin 10)} (h : NoTrailingZero b) : trimFrac (b.map digit) = b.map digit := by
  rcases h with rfl | ⟨d, l, rfl, hd⟩
  · rfl
  · unfold trimFrac
    rw [List.map_append, List.reverse_append, List.map_singleton, List.reverse_singleton, List.singleton_append,
      List.dropWhile_cons_of_neg (by simpa [digit_zero] using hd), List.reverse_cons, List.reverse_reverse]
    split
    · rename_i e; simp at e
    · rfl

theorem strUnsigned_int {a : List (Fin 10)} (h : NoLeadingZero a) :
    strUnsigned (a.map digit) = a.map digit ++ ['.', '0'] := by
  unfold strUnsigned
  rw [splitOnChar_self (dot_notin a)]
  simp only [trimInt_digits h]

theorem strUnsigned_dec {a b : List (Fin 10)} (ha : NoLeadingZero a) (hb : NoTrailingZero b) :
    strUnsigned (a.map digit ++ '.' :: b.map digit) = a.map digit ++ '.' :: b.map digit := by
  unfold strUnsigned
  rw [splitOnChar_append (dot_notin a), splitOnChar_self (dot_notin b)]
  simp only [trimInt_digits ha, trimFrac_digits hb]

theorem digits_head {a : List (Fin 10)} (h : NoLeadingZero a) (r : List Char) :
    ∃ d l, a.map digit ++ r = digit d :: l := by
  rcases h with rfl | ⟨d, l, rfl, -⟩
  · exact ⟨0, r, rfl⟩
  · exact ⟨d, l.map digit ++ r, rfl⟩

theorem strFloat_plain {t : List Char} (h : ∃ d l, t = digit d :: l) : strFloat t = String.ofList (strUnsigned t) := by
  obtain ⟨d, l, rfl⟩ := h
  unfold strFloat
  split
  · rename_i e; exact absurd (List.cons.inj e).1 (digit_ne d).2.1
  · rename_i e; exact absurd (List.cons.inj e).1 (digit_ne d).2.2.1
  · rfl

theorem strInt_plain {t : List Char} (h : ∃ d l, t = digit d :: l) : strInt t = String.ofList (trimInt t) := by
  obtain ⟨d, l, rfl⟩ := h
  unfold strInt
  split
  · rename_i e; exact absurd (List.cons.inj e).1 (digit_ne d).2.1
  · rename_i e; exact absurd (List.cons.inj e).1 (digit_ne d).2.2.1
  · rfl

/-- C89: a name in a text column is taken as written; an empty one is "nan". -/
theorem C89_name_text {col : List Cell} {i : ℕ} :
    (∀ s, col[i]? = some (.str s) → (astypeStr col)[i]? = some s) ∧
      (col[i]? = some .nan → (astypeStr col)[i]? = some "nan") := by
  unfold astypeStr
  constructor
  · intro s h; rw [List.getElem?_map, h]; rfl
  · intro h; rw [List.getElem?_map, h]; rfl

/-- C89: in a column of whole numbers the name is the number as written. -/
theorem C89_name_integer {col : List Cell} (h : ∀ c ∈ col, ∃ q t, c = .num q t ∧ '.' ∉ t) {i : ℕ} {q : ℚ}
    {a : List (Fin 10)} (ha : NoLeadingZero a) (hi : col[i]? = some (.num q (a.map digit))) :
    (astypeStr col)[i]? = some (String.ofList (a.map digit)) := by
  have hint : isIntCol col = true := by
    unfold isIntCol
    rw [List.all_eq_true]
    intro c hc
    obtain ⟨q, t, rfl, ht⟩ := h c hc
    simp [ht]
  have hd := digits_head ha []
  rw [List.append_nil] at hd
  simp only [astypeStr, hint, List.getElem?_map, hi, Option.map_some, cellStr, if_true, strInt_plain hd,
    trimInt_digits ha]

/-- C89: in a column with a decimal point or an empty cell somewhere, a decimal number is its name as written, but a
whole number gets ".0": group 2 is looked for under the name 2.0. -/
theorem C89_name_decimal {col : List Cell} (h : .nan ∈ col ∨ ∃ q t, .num q t ∈ col ∧ '.' ∈ t) {i : ℕ} {q : ℚ}
    {a b : List (Fin 10)} (ha : NoLeadingZero a) (hb : NoTrailingZero b) :
    (col[i]? = some (.num q (a.map digit ++ '.' :: b.map digit)) →
      (astypeStr col)[i]? = some (String.ofList (a.map digit ++ '.' :: b.map digit))) ∧
    (col[i]? = some (.num q (a.map digit)) →
      (astypeStr col)[i]? = some (String.ofList (a.map digit ++ ['.', '0']))) := by
  have hint : isIntCol col = false := by
    rw [Bool.eq_false_iff]
    unfold isIntCol
    rw [ne_eq, List.all_eq_true]
    intro hc
    rcases h with h | ⟨q, t, h, ht⟩
    · exact absurd (hc _ h) (by simp)
    · have := hc _ h
      simp [ht] at this
  constructor
  · intro hi
    simp only [astypeStr, hint, List.getElem?_map, hi, Option.map_some, cellStr, Bool.false_eq_true, if_false,
      strFloat_plain (digits_head ha _), strUnsigned_dec ha hb]
  · intro hi
    have hd := digits_head ha []
    rw [List.append_nil] at hd
    simp only [astypeStr, hint, List.getElem?_map, hi, Option.map_some, cellStr, Bool.false_eq_true, if_false,
      strFloat_plain hd, strUnsigned_int ha]

/-! ### A concrete file -/

/-- Header, a short row, a blank line, a row with text in the second column. -/
def exFile : Lines := [chars!"Temperature,150", chars!"-29", chars!" ", chars!"+50.5,n.a."]

/-- It is of the form required, -/
example : FileOf exFile [chars!"Temperature", chars!"150"] [[chars!"-29"], [chars!"+50.5", chars!"n.a."]] :=
  ⟨by decide +kernel, by decide +kernel, by decide +kernel⟩

/-- and read as expected: a number, NaN, a number, a text. -/
example : Holds (readCsv exFile) ["Temperature", "150"] [[dec 0 (-29), .nan], [dec 1 505, .str "n.a."]] := by
  apply holds_of; decide +kernel

/-- Two of its fields. -/
example : Denotes (chars!"-29") (-29) ∧ Denotes (chars!"+50.5") (505 / 10) := by
  constructor
  · have h := Denotes.minus (Unsigned.int [2, 9] (by simp))
    norm_num [numeral] at h
    exact h
  · have h := Denotes.plus (Unsigned.dec [5, 0] [5] (by simp))
    norm_num [numeral] at h
    norm_num
    exact h

/-- Group 2 in a column with group 2.1. -/
example : astypeStr [.num 2 (chars!"2"), .num (21 / 10) (chars!"2.1")] = ["2.0", "2.1"] := by
  decide +kernel

end Pypbomb.Import
