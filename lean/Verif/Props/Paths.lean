/-
C141: the package finds its own tables from whatever directory it is imported in.
-/
import Verif.Model.Paths
import Verif.Props.Csv
import Verif.Props.Import

namespace Pypbomb.Paths
open Materials (splitOnChar)

open Import

/-! ### Specification -/

/-- The name of a file or directory: not empty, without a slash, and not `.` or `..`. -/
def Name (c : Str) : Prop := c ≠ [] ∧ '/' ∉ c ∧ c ≠ ['.'] ∧ c ≠ dotdot

/-- The absolute path through the directories `cs`. -/
def absStr (cs : List Str) : Str := '/' :: List.intercalate ['/'] cs

/-- The file or directory one gets to from the root through the names `cs`. -/
def FS.at (fs : FS) (cs : List Str) : Option fs.Node := cs.foldlM fs.child fs.root

/-- `n` is the directory at `cs`, with no symbolic links on the way: `..` leads back. -/
inductive Real (fs : FS) : List Str → fs.Node → Prop
  | root : Real fs [] fs.root
  | sub {cs : List Str} {n m : fs.Node} {c : Str} : Real fs cs n → Name c → fs.child n c = some m → fs.parent m = n →
      Real fs (cs ++ [c]) m

/-- The process works in the directory `cs`, and `os.getcwd()` says so. -/
def Proc.In {fs : FS} (w : Proc fs) (cs : List Str) : Prop := Real fs cs w.cwd ∧ w.getcwd = .ok (absStr cs)

/-- What the tables are: the files in the directory `lookup_data` of the package directory `pkg`. -/
def trueDisk (fs : FS) (pkg : List Str) : Disk := fun name => (fs.at (pkg ++ [lookupData, name.toList])).bind fs.content

/-- The names of the files in that directory. -/
def trueListing (fs : FS) (pkg : List Str) : List String :=
  match fs.at (pkg ++ [lookupData]) with
  | some n => fs.names n
  | none => []

/-! ### Strings -/

/-- A component of a path: not empty, without a slash. -/
def Piece (c : Str) : Prop := c ≠ [] ∧ '/' ∉ c

abbrev joinSep (l : List Str) : Str := List.intercalate ['/'] l

theorem Name.piece {c : Str} (h : Name c) : Piece c := ⟨h.1, h.2.1⟩
theorem piece_dotdot : Piece dotdot := by constructor <;> decide

theorem joinSep_one (c : Str) : joinSep [c] = c := by simp [joinSep, List.intercalate]

theorem joinSep_cons (c d : Str) (l : List Str) : joinSep (c :: d :: l) = c ++ '/' :: joinSep (d :: l) := by
  simp [joinSep, List.intercalate]

theorem joinSep_snoc {l : List Str} (h : l ≠ []) (c : Str) : joinSep (l ++ [c]) = joinSep l ++ '/' :: c := by
  induction l with
  | nil => exact absurd rfl h
  | cons a l ih =>
    cases l with
    | nil => simp [joinSep, List.intercalate]
    | cons b l =>
      rw [List.cons_append, List.cons_append, joinSep_cons, ← List.cons_append, ih (by simp), joinSep_cons]
      simp

theorem joinSep_append {l m : List Str} (hl : l ≠ []) (hm : m ≠ []) : joinSep (l ++ m) = joinSep l ++ '/' :: joinSep m := by
  induction l with
  | nil => exact absurd rfl hl
  | cons a l ih =>
    obtain ⟨b, m', rfl⟩ := List.exists_cons_of_ne_nil hm
    cases l with
    | nil => rw [List.singleton_append, joinSep_cons, joinSep_one]
    | cons c l =>
      rw [List.cons_append, List.cons_append, joinSep_cons, ← List.cons_append, ih (by simp), joinSep_cons]
      simp

theorem joinSep_head {l : List Str} (h : ∀ c ∈ l, Piece c) (hl : l ≠ []) :
    ∃ x s, joinSep l = x :: s ∧ x ≠ '/' := by
  obtain ⟨c, l, rfl⟩ := List.exists_cons_of_ne_nil hl
  obtain ⟨h0, h1⟩ := h c (by simp)
  obtain ⟨x, c, rfl⟩ := List.exists_cons_of_ne_nil h0
  have hx : x ≠ '/' := by rintro rfl; simp at h1
  cases l with
  | nil => exact ⟨x, c, joinSep_one _, hx⟩
  | cons d l => exact ⟨x, _, by rw [joinSep_cons]; rfl, hx⟩

theorem joinSep_last {l : List Str} (h : ∀ c ∈ l, Piece c) (hl : l ≠ []) :
    ∃ x s, joinSep l = s ++ [x] ∧ x ≠ '/' := by
  obtain ⟨l, c, rfl⟩ := List.eq_nil_or_concat' l |>.resolve_left hl
  obtain ⟨h0, h1⟩ := h c (by simp)
  obtain ⟨c, x, rfl⟩ := List.eq_nil_or_concat' c |>.resolve_left h0
  have hx : x ≠ '/' := by rintro rfl; simp at h1
  by_cases hn : l = []
  · subst hn; exact ⟨x, c, by rw [List.nil_append, joinSep_one], hx⟩
  · exact ⟨x, joinSep l ++ '/' :: c, by rw [joinSep_snoc hn]; simp, hx⟩

theorem isAbs_joinSep {l : List Str} (h : ∀ c ∈ l, Piece c) : isAbs (joinSep l) = false := by
  by_cases hl : l = []
  · subst hl; rfl
  · obtain ⟨x, s, e, hx⟩ := joinSep_head h hl
    rw [e]
    unfold isAbs
    split
    · rename_i h; simp at h; exact absurd h.1 hx
    · rfl

theorem isAbs_piece {c : Str} (h : Piece c) : isAbs c = false := by
  rw [← joinSep_one c]; exact isAbs_joinSep (by simpa using h)

theorem join2_joinSep {l : List Str} {c : Str} (h : ∀ d ∈ l, Piece d) (hc : Piece c) :
    join2 (joinSep l) c = joinSep (l ++ [c]) := by
  unfold join2
  rw [isAbs_piece hc]
  simp only [Bool.false_eq_true, if_false]
  by_cases hl : l = []
  · subst hl; simp [joinSep, List.intercalate]
  · obtain ⟨x, s, e, hx⟩ := joinSep_last h hl
    rw [if_neg, joinSep_snoc hl]
    rw [e]
    simp [hx]

theorem joinAll_eq {l : List Str} (h : ∀ d ∈ l, Piece d) : joinAll l = joinSep l := by
  induction l using List.reverseRecOn with
  | nil => rfl
  | append_singleton l c ih =>
    have hl : ∀ d ∈ l, Piece d := fun d hd => h d (by simp [hd])
    cases l with
    | nil => simp [joinAll]
    | cons a l =>
      have : joinAll (a :: l ++ [c]) = join2 (joinAll (a :: l)) c := by simp [joinAll]
      rw [this, ih hl, join2_joinSep hl (h c (by simp))]

theorem join2_abs {cs l : List Str} (hcs : ∀ d ∈ cs, Piece d) (h : ∀ d ∈ l, Piece d) (hl : l ≠ []) :
    join2 (absStr cs) (joinSep l) = absStr (cs ++ l) := by
  unfold join2
  rw [isAbs_joinSep h]
  simp only [Bool.false_eq_true, if_false]
  by_cases hc : cs = []
  · subst hc
    rw [if_pos]
    · simp [absStr, joinSep, List.intercalate]
    · right; simp [absStr, List.intercalate]
  · obtain ⟨x, s, e, hx⟩ := joinSep_last hcs hc
    rw [if_neg]
    · show '/' :: joinSep cs ++ _ = '/' :: joinSep (cs ++ l)
      rw [joinSep_append hc hl]
      simp
    · show ¬('/' :: joinSep cs = [] ∨ ('/' :: joinSep cs).getLast? = some '/')
      rw [e, ← List.cons_append, List.getLast?_concat]
      rintro (h | h)
      · simp at h
      · exact hx (Option.some.inj h)

theorem split_joinSep {l : List Str} (h : ∀ d ∈ l, Piece d) (hl : l ≠ []) : splitOnChar '/' (joinSep l) = l :=
  splitOnChar_intercalate hl fun d hd => (h d hd).2

theorem split_abs {l : List Str} (h : ∀ d ∈ l, Piece d) :
    splitOnChar '/' (absStr l) = [] :: (if l = [] then [[]] else l) := by
  have : splitOnChar '/' (absStr l) = [] :: splitOnChar '/' (joinSep l) := by simp [absStr, splitOnChar]
  rw [this]
  split
  · next e => subst e; simp [joinSep, List.intercalate, splitOnChar]
  · next e => rw [split_joinSep h e]

/-! ### normpath, abspath, relpath, dirname -/

theorem slashes_abs {l : List Str} (h : ∀ d ∈ l, Piece d) : slashes (absStr l) = 1 := by
  by_cases hl : l = []
  · subst hl; rfl
  · obtain ⟨x, s, e, hx⟩ := joinSep_head h hl
    have : absStr l = '/' :: x :: s := by rw [← e]; rfl
    rw [this]
    unfold slashes
    split <;> simp_all

theorem normpath_abs {l : List Str} (h : ∀ d ∈ l, Piece d) : normpath (absStr l) = absStr (l.foldl (normStep true) []) := by
  unfold normpath
  rw [if_neg (by simp [absStr]), slashes_abs h, split_abs h]
  have ha : isAbs (absStr l) = true := rfl
  have hn : ∀ a, normStep true a [] = a := by intro a; simp [normStep]
  simp only [ha, List.foldl_cons, hn]
  have : List.foldl (normStep true) [] (if l = [] then [[]] else l) = l.foldl (normStep true) [] := by
    split
    · next e => subst e; simp [hn]
    · rfl
  rw [this, if_neg (by simp)]
  simp [absStr]

theorem fold_names {l : List Str} (h : ∀ d ∈ l, Name d) (a : Bool) (acc : List Str) :
    l.foldl (normStep a) acc = acc ++ l := by
  induction l generalizing acc with
  | nil => simp
  | cons c l ih =>
    obtain ⟨h0, -, h1, h2⟩ := h c (by simp)
    have : normStep a acc c = acc ++ [c] := by
      unfold normStep
      rw [if_neg (by simp [h0, h1]), if_pos (.inl h2)]
    rw [List.foldl_cons, this, ih fun d hd => h d (by simp [hd])]
    simp

theorem fold_ups {cs : List Str} (h : ∀ d ∈ cs, Name d) (k : ℕ) :
    (List.replicate k dotdot).foldl (normStep true) cs = cs.take (cs.length - k) := by
  induction k generalizing cs with
  | zero => simp
  | succ k ih =>
    have hs : normStep true cs dotdot = cs.dropLast := by
      unfold normStep
      rw [if_neg (by decide), if_neg]
      simp only [ne_eq, not_true, Bool.true_eq_false, false_and, false_or]
      intro hl
      exact (h dotdot (List.mem_of_getLast? hl)).2.2.2 rfl
    rw [List.replicate_succ, List.foldl_cons, hs, ih fun d hd => h d (List.mem_of_mem_dropLast hd)]
    rw [List.dropLast_eq_take, List.take_take, List.length_take]
    congr 1
    omega

theorem filter_split {l : List Str} (h : ∀ d ∈ l, Piece d) : (splitOnChar '/' (absStr l)).filter (· ≠ []) = l := by
  rw [split_abs h]
  have : (if l = [] then [[]] else l).filter (fun x : Str => decide (x ≠ [])) = l := by
    split
    · next e => subst e; rfl
    · exact List.filter_eq_self.mpr fun a ha => by simpa using (h a ha).1
  simpa using this

theorem common_spec (l m : List Str) : common l m ≤ l.length ∧ common l m ≤ m.length ∧
    l.take (common l m) = m.take (common l m) := by
  induction l generalizing m with
  | nil => simp [common]
  | cons a l ih =>
    cases m with
    | nil => simp [common]
    | cons b m =>
      simp only [common]
      split
      · next e =>
        subst e
        obtain ⟨h1, h2, h3⟩ := ih m
        simp [h1, h2, h3]
      · simp

/-- The components of the way from the directory `cs` to `t`. -/
def wayTo (cs t : List Str) : List Str := List.replicate (cs.length - common cs t) dotdot ++ t.drop (common cs t)

theorem wayTo_piece {cs t : List Str} (ht : ∀ d ∈ t, Name d) : ∀ d ∈ wayTo cs t, Piece d := by
  intro d hd
  rcases List.mem_append.mp hd with h | h
  · rw [List.eq_of_mem_replicate h]; exact piece_dotdot
  · exact (ht d (List.mem_of_mem_drop h)).piece

/-- `relpath` of a path that means `t`, in the directory `cs`. -/
theorem relpath_eq {cs t : List Str} {getcwd : Py Str} {p : Str} (hcs : ∀ d ∈ cs, Name d) (ht : ∀ d ∈ t, Name d)
    (hw : getcwd = .ok (absStr cs)) (hp : p ≠ []) (ha : abspath getcwd p = .ok (absStr t)) :
    relpath getcwd p = .ok (if wayTo cs t = [] then ['.'] else joinSep (wayTo cs t)) := by
  have h1 : abspath getcwd ['.'] = .ok (absStr cs) := by
    unfold abspath
    have hd : Piece ['.'] := by constructor <;> decide
    rw [if_neg (by decide), hw]
    simp only [ok_bind]
    have e : join2 (absStr cs) ['.'] = absStr (cs ++ [['.']]) := by
      have := join2_abs (cs := cs) (l := [['.']]) (fun d h => (hcs d h).piece) (by simpa using hd) (by simp)
      rwa [joinSep_one] at this
    rw [e, normpath_abs]
    · rw [List.foldl_append, fold_names hcs]
      simp [normStep]
    · intro d h
      rcases List.mem_append.mp h with h | h
      · exact (hcs d h).piece
      · rw [List.mem_singleton.mp h]; exact hd
  unfold relpath
  rw [if_neg hp, h1, ha]
  simp only [ok_bind]
  rw [filter_split fun d h => (hcs d h).piece, filter_split fun d h => (ht d h).piece]
  show Except.ok (if wayTo cs t = [] then ['.'] else joinAll (wayTo cs t)) = _
  rw [joinAll_eq (wayTo_piece (cs := cs) ht)]

theorem abspath_abs {getcwd : Py Str} {t : List Str} (ht : ∀ d ∈ t, Name d) : abspath getcwd (absStr t) = .ok (absStr t) := by
  unfold abspath
  rw [if_pos (show isAbs (absStr t) = true from rfl), normpath_abs fun d h => (ht d h).piece, fold_names ht, List.nil_append]

/-- A way out of `cs` and back in. -/
theorem abspath_way {getcwd : Py Str} {cs r : List Str} {k : ℕ} (hcs : ∀ d ∈ cs, Name d) (hr : ∀ d ∈ r, Name d) (h0 : r ≠ [])
    (hw : getcwd = .ok (absStr cs)) :
    abspath getcwd (joinSep (List.replicate k dotdot ++ r)) = .ok (absStr (cs.take (cs.length - k) ++ r)) := by
  have hp : ∀ d ∈ List.replicate k dotdot ++ r, Piece d := by
    intro d hd
    rcases List.mem_append.mp hd with h | h
    · rw [List.eq_of_mem_replicate h]; exact piece_dotdot
    · exact (hr d h).piece
  have hc := fun d h => (hcs d h).piece
  unfold abspath
  rw [isAbs_joinSep hp, hw]
  simp only [Bool.false_eq_true, if_false, ok_bind]
  rw [join2_abs hc hp (by simp [h0]), normpath_abs, List.foldl_append, fold_names hcs, List.nil_append, List.foldl_append,
    fold_ups hcs, fold_names hr]
  intro d hd
  rcases List.mem_append.mp hd with h | h
  · exact hc d h
  · exact hp d h

theorem dropWhile_head {p : Char → Bool} {x : Char} {s : Str} (h : p x = false) : (x :: s).dropWhile p = x :: s := by
  simp [h]

theorem dirname_core {a b : Str} {x : Char} (hb : '/' ∉ b) (hx : x ≠ '/') :
    dirname (a ++ x :: '/' :: b) = a ++ [x] := by
  have e : (a ++ x :: '/' :: b).reverse.dropWhile (· ≠ '/') = '/' :: x :: a.reverse := by
    have : (a ++ x :: '/' :: b).reverse = b.reverse ++ ('/' :: x :: a.reverse) := by simp
    rw [this, List.dropWhile_append_of_pos]
    · simp
    · intro c hc
      have : c ∈ b := by simpa using hc
      simp only [ne_eq, decide_eq_true_eq]
      rintro rfl
      exact hb this
  unfold dirname
  simp only [e]
  rw [if_neg (by simp [hx])]
  simp [hx]

theorem dirname_joinSep {l : List Str} {c : Str} (h : ∀ d ∈ l, Piece d) (hc : Piece c) :
    dirname (joinSep (l ++ [c])) = joinSep l := by
  by_cases hl : l = []
  · subst hl
    rw [List.nil_append, joinSep_one]
    have e : c.reverse.dropWhile (· ≠ '/') = [] := by
      rw [← List.append_nil c.reverse, List.dropWhile_append_of_pos]
      · rfl
      intro x hx
      have : x ∈ c := by simpa using hx
      simp only [ne_eq, decide_eq_true_eq]
      rintro rfl
      exact hc.2 this
    unfold dirname
    simp only [e]
    rfl
  · obtain ⟨x, s, e, hx⟩ := joinSep_last h hl
    rw [joinSep_snoc hl, e, List.append_assoc]
    exact dirname_core hc.2 hx

theorem dirname_abs {l : List Str} {c : Str} (h : ∀ d ∈ l, Piece d) (hc : Piece c) : dirname (absStr (l ++ [c])) = absStr l := by
  by_cases hl : l = []
  · subst hl
    have e : (absStr ([] ++ [c])).reverse.dropWhile (· ≠ '/') = ['/'] := by
      have : (absStr ([] ++ [c])).reverse = c.reverse ++ ['/'] := by simp [absStr, List.intercalate]
      rw [this, List.dropWhile_append_of_pos]
      · simp
      · intro x hx
        have : x ∈ c := by simpa using hx
        simp only [ne_eq, decide_eq_true_eq]
        rintro rfl
        exact hc.2 this
    unfold dirname
    simp only [e]
    rfl
  · obtain ⟨x, s, e, hx⟩ := joinSep_last h hl
    have e1 : absStr (l ++ [c]) = ('/' :: s) ++ x :: '/' :: c := by
      show '/' :: joinSep (l ++ [c]) = _
      rw [joinSep_snoc hl, e]; simp
    have e2 : absStr l = ('/' :: s) ++ [x] := by
      show '/' :: joinSep l = _
      rw [e]; rfl
    rw [e1, e2]
    exact dirname_core hc.2 hx

/-! ### Walking -/

variable {fs : FS}

theorem step_nil (n : fs.Node) : fs.step n [] = some n := by simp [FS.step]

theorem step_name {c : Str} (h : Name c) (n : fs.Node) : fs.step n c = fs.child n c := by
  unfold FS.step
  rw [if_neg (by simp [h.1, h.2.2.1]), if_neg h.2.2.2]

theorem foldlM_names {l : List Str} (h : ∀ d ∈ l, Name d) (n : fs.Node) : l.foldlM fs.step n = l.foldlM fs.child n := by
  induction l generalizing n with
  | nil => rfl
  | cons c l ih =>
    rw [List.foldlM_cons, List.foldlM_cons, step_name (h c (by simp))]
    congr 1
    funext m
    exact ih (fun d hd => h d (by simp [hd])) m

theorem walk_abs {t : List Str} (ht : ∀ d ∈ t, Name d) (n : fs.Node) : fs.walk n (absStr t) = fs.at t := by
  have ha : isAbs (absStr t) = true := rfl
  unfold FS.walk FS.at
  rw [split_abs fun d h => (ht d h).piece, if_pos ha, List.foldlM_cons, step_nil, ← foldlM_names ht]
  show List.foldlM fs.step fs.root (if t = [] then [[]] else t) = _
  split
  · next e => subst e; simp [FS.step]
  · rfl

theorem walk_rel {l : List Str} (hl : ∀ d ∈ l, Piece d) (h0 : l ≠ []) (n : fs.Node) :
    fs.walk n (joinSep l) = l.foldlM fs.step n := by
  unfold FS.walk
  rw [isAbs_joinSep hl, split_joinSep hl h0]
  simp

theorem Real.names {cs : List Str} {n : fs.Node} (h : Real fs cs n) : ∀ c ∈ cs, Name c := by
  induction h with
  | root => simp
  | sub _ hc _ _ ih =>
    intro d hd
    rcases List.mem_append.mp hd with h | h
    · exact ih d h
    · rw [List.mem_singleton.mp h]; exact hc

theorem Real.at_eq {cs : List Str} {n : fs.Node} (h : Real fs cs n) : fs.at cs = some n := by
  induction h with
  | root => rfl
  | sub _ _ hc _ ih =>
    unfold FS.at at ih ⊢
    rw [List.foldlM_append, ih]
    simp [hc]

/-- `..` so and so many times. -/
theorem Real.up {cs : List Str} {n : fs.Node} (h : Real fs cs n) {k : ℕ} (hk : k ≤ cs.length) :
    ∃ m, (List.replicate k dotdot).foldlM fs.step n = some m ∧ Real fs (cs.take (cs.length - k)) m := by
  induction k generalizing cs n with
  | zero => exact ⟨n, rfl, by simpa using h⟩
  | succ k ih =>
    cases h with
    | root => simp at hk
    | @sub cs n _ c h hc hn hp =>
      have hs : ∀ m : fs.Node, fs.step m dotdot = some (fs.parent m) := by
        intro m
        unfold FS.step
        rw [if_neg (by decide), if_pos rfl]
      simp only [List.length_append, List.length_singleton] at hk
      obtain ⟨m, h1, h2⟩ := ih h (by omega)
      refine ⟨m, ?_, ?_⟩
      · rw [List.replicate_succ, List.foldlM_cons, hs, hp]
        exact h1
      · rw [List.length_append, List.length_singleton, List.take_append_of_le_length (by omega)]
        rwa [show cs.length + 1 - (k + 1) = cs.length - k by omega]

/-- From the directory `cs` up to where it parts from `p`, and down. -/
theorem walk_way {cs p r : List Str} {n : fs.Node} {j : ℕ} (h : Real fs cs n) (hp : ∀ d ∈ p, Name d) (hr : ∀ d ∈ r, Name d)
    (hj : j ≤ cs.length) (e : cs.take j = p.take j) :
    (List.replicate (cs.length - j) dotdot ++ (p.drop j ++ r)).foldlM fs.step n = fs.at (p ++ r) := by
  obtain ⟨m, h1, h2⟩ := h.up (k := cs.length - j) (by omega)
  have e2 : cs.length - (cs.length - j) = j := by omega
  rw [e2, e] at h2
  rw [List.foldlM_append, h1]
  show List.foldlM fs.step m (p.drop j ++ r) = _
  rw [foldlM_names]
  · have := h2.at_eq
    unfold FS.at at this ⊢
    conv_rhs => rw [← List.take_append_drop j p, List.append_assoc, List.foldlM_append, this]
    rfl
  · intro d hd
    rcases List.mem_append.mp hd with h | h
    · exact hp d (List.mem_of_mem_drop h)
    · exact hr d h

/-! ### The paths of the package -/

variable {w w' : Proc fs} {cs cs' pkg : List Str} {f : Str}

theorem piece_lookup : Name lookupData := by
  refine ⟨?_, ?_, ?_, ?_⟩ <;> decide

/-- How far the working directory goes along with the package. -/
abbrev along (cs pkg : List Str) (f : Str) : ℕ := common cs (pkg ++ [f])

theorem along_le (hf : ¬ pkg ++ [f] <+: cs) : along cs pkg f ≤ pkg.length := by
  obtain ⟨h1, h2, h3⟩ := common_spec cs (pkg ++ [f])
  by_contra hc
  have : common cs (pkg ++ [f]) = (pkg ++ [f]).length := by
    simp only [List.length_append, List.length_singleton] at h2 ⊢
    simp only [along] at hc
    omega
  rw [this, List.take_length] at h3
  exact hf (h3 ▸ List.take_prefix _ _)

theorem along_take (hf : ¬ pkg ++ [f] <+: cs) : cs.take (along cs pkg f) = pkg.take (along cs pkg f) := by
  obtain ⟨-, -, h3⟩ := common_spec cs (pkg ++ [f])
  rw [h3, List.take_append_of_le_length (along_le hf)]

/-- The components of the way to the data directory. -/
abbrev dirWay (cs pkg : List Str) (f : Str) : List Str :=
  List.replicate (cs.length - along cs pkg f) dotdot ++ (pkg.drop (along cs pkg f) ++ [lookupData])

theorem dirWay_piece (hp : ∀ d ∈ pkg, Name d) : ∀ d ∈ dirWay cs pkg f, Piece d := by
  intro d hd
  rcases List.mem_append.mp hd with h | h
  · rw [List.eq_of_mem_replicate h]; exact piece_dotdot
  · rcases List.mem_append.mp h with h | h
    · exact (hp d (List.mem_of_mem_drop h)).piece
    · rw [List.mem_singleton.mp h]; exact piece_lookup.piece

theorem dataDir_eq {getcwd : Py Str} (hcs : ∀ d ∈ cs, Name d) (hp : ∀ d ∈ pkg, Name d) (hn : Name f)
    (hw : getcwd = .ok (absStr cs)) (hf : ¬ pkg ++ [f] <+: cs) :
    dataDir getcwd (absStr (pkg ++ [f])) = .ok (joinSep (dirWay cs pkg f)) := by
  have ht : ∀ d ∈ pkg ++ [f], Name d := by
    intro d hd
    rcases List.mem_append.mp hd with h | h
    · exact hp d h
    · rw [List.mem_singleton.mp h]; exact hn
  have e : wayTo cs (pkg ++ [f]) =
      List.replicate (cs.length - along cs pkg f) dotdot ++ pkg.drop (along cs pkg f) ++ [f] := by
    unfold wayTo
    rw [List.drop_append_of_le_length (along_le hf), List.append_assoc]
  unfold dataDir
  rw [relpath_eq hcs ht hw (by simp [absStr]) (abspath_abs ht), if_neg (by rw [e]; simp), e]
  have hd := dirWay_piece (cs := cs) (f := f) hp
  have hq : ∀ d ∈ List.replicate (cs.length - along cs pkg f) dotdot ++ pkg.drop (along cs pkg f), Piece d := fun d h =>
    hd d (by rw [dirWay, ← List.append_assoc]; exact List.mem_append_left _ h)
  simp only [ok_bind]
  rw [dirname_joinSep hq hn.piece, join2_joinSep hq piece_lookup.piece, dirWay, List.append_assoc]

theorem snoc_piece {l : List Str} {c : Str} (h : ∀ d ∈ l, Piece d) (hc : Piece c) : ∀ d ∈ l ++ [c], Piece d := by
  intro d hd
  rcases List.mem_append.mp hd with h' | h'
  · exact h d h'
  · rw [List.mem_singleton.mp h']; exact hc

/-- The path of a stress limit file, and of everything `_check_materials_list` opens, stands for the file. -/
theorem walk_stress {name : Str} (hR : Real fs cs w.cwd) (hp : ∀ d ∈ pkg, Name d) (hn : Name name)
    (hf : ¬ pkg ++ [f] <+: cs) :
    fs.walk w.cwd (join2 (joinSep (dirWay cs pkg f)) name) = fs.at (pkg ++ [lookupData, name]) := by
  have hd := dirWay_piece (cs := cs) (f := f) hp
  rw [join2_joinSep hd hn.piece, walk_rel (snoc_piece hd hn.piece) (by simp)]
  have := walk_way (r := [lookupData, name]) hR hp (by
    intro d hd
    simp only [List.mem_cons, List.not_mem_nil, or_false] at hd
    rcases hd with rfl | rfl
    · exact piece_lookup
    · exact hn) (common_spec cs (pkg ++ [f])).1 (along_take hf)
  simpa [dirWay] using this

/-- The data directory computed is the data directory. -/
theorem walk_dir (hR : Real fs cs w.cwd) (hp : ∀ d ∈ pkg, Name d) (hf : ¬ pkg ++ [f] <+: cs) :
    fs.walk w.cwd (joinSep (dirWay cs pkg f)) = fs.at (pkg ++ [lookupData]) := by
  rw [walk_rel (dirWay_piece hp) (by simp)]
  exact walk_way (r := [lookupData]) hR hp (by
    intro d hd
    rw [List.mem_singleton.mp hd]; exact piece_lookup) (common_spec cs (pkg ++ [f])).1 (along_take hf)

theorem wayTo_nil {t : List Str} (h : wayTo cs t = []) : cs = t := by
  obtain ⟨h1, h2, h3⟩ := common_spec cs t
  unfold wayTo at h
  simp only [List.append_eq_nil_iff, List.replicate_eq_nil_iff, List.drop_eq_nil_iff] at h
  rwa [List.take_of_length_le (by omega), List.take_of_length_le (by omega)] at h3

/-- The path of any other table: `relpath` of the path above. -/
theorem table_path {getcwd : Py Str} {name : Str} (hcs : ∀ d ∈ cs, Name d) (hp : ∀ d ∈ pkg, Name d) (hn : Name name)
    (hw : getcwd = .ok (absStr cs)) (hf : ¬ pkg ++ [f] <+: cs) :
    relpath getcwd (join2 (joinSep (dirWay cs pkg f)) name) =
      .ok (if wayTo cs (pkg ++ [lookupData, name]) = [] then ['.'] else joinSep (wayTo cs (pkg ++ [lookupData, name]))) := by
  have hd := dirWay_piece (cs := cs) (f := f) hp
  have ht : ∀ d ∈ pkg ++ [lookupData, name], Name d := by
    intro d hd
    simp only [List.mem_append, List.mem_cons, List.not_mem_nil, or_false] at hd
    rcases hd with h | rfl | rfl
    · exact hp d h
    · exact piece_lookup
    · exact hn
  rw [join2_joinSep hd hn.piece]
  refine relpath_eq hcs ht hw ?_ ?_
  · obtain ⟨x, s, e, -⟩ := joinSep_head (snoc_piece hd hn.piece) (by simp)
    rw [e]; simp
  · have hr : ∀ d ∈ pkg.drop (along cs pkg f) ++ [lookupData, name], Name d := by
      intro d hd
      apply ht d
      rcases List.mem_append.mp hd with h | h
      · exact List.mem_append_left _ (List.mem_of_mem_drop h)
      · exact List.mem_append_right _ h
    have := abspath_way (k := cs.length - along cs pkg f) hcs hr (by simp) hw
    have e : cs.length - (cs.length - along cs pkg f) = along cs pkg f := by
      have := (common_spec cs (pkg ++ [f])).1
      simp only [along]; omega
    have e2 : pkg.take (along cs pkg f) ++ (pkg.drop (along cs pkg f) ++ [lookupData, name]) = pkg ++ [lookupData, name] := by
      rw [← List.append_assoc, List.take_append_drop]
    rw [e, along_take hf, e2] at this
    simpa [dirWay] using this

theorem walk_table {name : Str} (hR : Real fs cs w.cwd) (hp : ∀ d ∈ pkg, Name d) (hn : Name name) :
    fs.walk w.cwd (if wayTo cs (pkg ++ [lookupData, name]) = [] then ['.']
      else joinSep (wayTo cs (pkg ++ [lookupData, name]))) = fs.at (pkg ++ [lookupData, name]) := by
  have ht : ∀ d ∈ pkg ++ [lookupData, name], Name d := by
    intro d hd
    simp only [List.mem_append, List.mem_cons, List.not_mem_nil, or_false] at hd
    rcases hd with h | rfl | rfl
    · exact hp d h
    · exact piece_lookup
    · exact hn
  split
  · next h =>
    have e := wayTo_nil h
    rw [← e, hR.at_eq]
    have hs : splitOnChar '/' ['.'] = [['.']] := by decide
    unfold FS.walk
    rw [hs]
    simp [FS.step, isAbs]
  · next h =>
    rw [walk_rel (wayTo_piece ht) h]
    obtain ⟨h1, -, h3⟩ := common_spec cs (pkg ++ [lookupData, name])
    have := walk_way (r := []) hR ht (by simp) h1 h3
    simpa [wayTo] using this

/-! ### No tilde in front -/

/-- Does not begin with a tilde. -/
def NoTilde (c : Str) : Prop := c.head? ≠ some '~'

theorem joinSep_noTilde {l : List Str} (h : ∀ d ∈ l, Piece d ∧ NoTilde d) : NoTilde (joinSep l) := by
  cases l with
  | nil => simp [NoTilde, joinSep, List.intercalate]
  | cons c l =>
    obtain ⟨⟨h0, -⟩, ht⟩ := h c (by simp)
    obtain ⟨x, c, rfl⟩ := List.exists_cons_of_ne_nil h0
    cases l with
    | nil => rw [joinSep_one]; exact ht
    | cons d l => rw [joinSep_cons]; simpa [NoTilde] using ht

theorem way_noTilde {k j : ℕ} {t : List Str} (h : ∀ d ∈ t, Name d) (ht : ∀ d ∈ t, NoTilde d) :
    ∀ d ∈ List.replicate k dotdot ++ t.drop j, Piece d ∧ NoTilde d := by
  intro d hd
  rcases List.mem_append.mp hd with h' | h'
  · rw [List.eq_of_mem_replicate h']; exact ⟨piece_dotdot, by simp [NoTilde, dotdot]⟩
  · exact ⟨(h d (List.mem_of_mem_drop h')).piece, ht d (List.mem_of_mem_drop h')⟩

/-! ### C141 -/

variable {expand : Str → Str} {u : ℕ} {iter : List String → List String}

/-- The package is installed in the directory `pkg`, none of whose names begins with a tilde; the names of its tables are names. -/
structure Installed (fs : FS) (pkg : List Str) : Prop where
  names : ∀ d ∈ pkg, Name d
  noTilde : ∀ d ∈ pkg, NoTilde d
  listing : ∀ n ∈ trueListing fs pkg, Name n.toList

theorem table_names : ∀ n ∈ shipped.map (·.1), Name n.toList ∧ NoTilde n.toList := by
  have : ∀ n ∈ shipped.map (·.1), (n.toList ≠ [] ∧ '/' ∉ n.toList ∧ n.toList ≠ ['.'] ∧ n.toList ≠ dotdot) ∧
      n.toList.head? ≠ some '~' := by decide +kernel
  exact this

/-- `tube.py`. -/
def tubePy : Str := "tube.py".toList

theorem tubePy_name : Name tubePy := by refine ⟨?_, ?_, ?_, ?_⟩ <;> decide

/-- C141: from whatever directory the package is imported, it loads the tables of its own directory. -/
theorem C141_import_partial (hi : Installed fs pkg) (hw : w.In cs) (hf : ¬ pkg ++ [tubePy] <+: cs)
    (hx : ∀ p, NoTilde p → expand p = p) :
    importFrom u w expand (absStr (pkg ++ [tubePy])) iter = importTube u (trueDisk fs pkg) (trueListing fs pkg) iter := by
  obtain ⟨hR, hg⟩ := hw
  have hcs := hR.names
  have hp := hi.names
  unfold importFrom
  rw [dataDir_eq hcs hp tubePy_name hg hf]
  simp only [ok_bind]
  have hd := dirWay_piece (cs := cs) (f := tubePy) hp
  have hopen : ∀ n : String, Name n.toList →
      w.read (join2 (joinSep (dirWay cs pkg tubePy)) n.toList) = trueDisk fs pkg n := by
    intro n hn
    unfold Proc.read trueDisk
    rw [walk_stress hR hp hn hf]
  have hl : w.listdir (joinSep (dirWay cs pkg tubePy)) = trueListing fs pkg := by
    unfold trueListing Proc.listdir
    rw [walk_dir hR hp hf]
    rfl
  have hstress : ∀ n ∈ shipped.map (·.1),
      w.read (expand (join2 (joinSep (dirWay cs pkg tubePy)) n.toList)) = trueDisk fs pkg n := by
    intro n hn
    obtain ⟨h1, h2⟩ := table_names n hn
    rw [hx, hopen n h1]
    rw [join2_joinSep hd h1.piece]
    have e : dirWay cs pkg tubePy ++ [n.toList] =
        List.replicate (cs.length - along cs pkg tubePy) dotdot ++
          (pkg ++ [lookupData, n.toList]).drop (along cs pkg tubePy) := by
      rw [List.drop_append_of_le_length (along_le hf)]
      simp [dirWay]
    rw [e]
    refine joinSep_noTilde (way_noTilde ?_ ?_)
    · intro d hd
      simp only [List.mem_append, List.mem_cons, List.not_mem_nil, or_false] at hd
      rcases hd with h | rfl | rfl
      · exact hp d h
      · exact piece_lookup
      · exact h1
    · intro d hd
      simp only [List.mem_append, List.mem_cons, List.not_mem_nil, or_false] at hd
      rcases hd with h | rfl | rfl
      · exact hi.noTilde d h
      · unfold NoTilde; decide
      · exact h2
  have htable : ∀ n ∈ shipped.map (·.1),
      w.table expand (joinSep (dirWay cs pkg tubePy)) n = trueDisk fs pkg n := by
    intro n hn
    obtain ⟨h1, h2⟩ := table_names n hn
    unfold Proc.table
    rw [table_path hcs hp h1 hg hf]
    simp only
    rw [hx]
    · unfold Proc.read trueDisk
      rw [walk_table hR hp h1]
    · split
      · unfold NoTilde; decide
      · refine joinSep_noTilde (way_noTilde ?_ ?_)
        · intro d hd
          simp only [List.mem_append, List.mem_cons, List.not_mem_nil, or_false] at hd
          rcases hd with h | rfl | rfl
          · exact hp d h
          · exact piece_lookup
          · exact h1
        · intro d hd
          simp only [List.mem_append, List.mem_cons, List.not_mem_nil, or_false] at hd
          rcases hd with h | rfl | rfl
          · exact hi.noTilde d h
          · unfold NoTilde; decide
          · exact h2
  have n1 : Flange.fileName "2.1" = "ASME_B16_5_flange_ratings_group_2_1.csv" := by decide +kernel
  have n2 : Flange.fileName "2.2" = "ASME_B16_5_flange_ratings_group_2_2.csv" := by decide +kernel
  have n3 : Flange.fileName "2.3" = "ASME_B16_5_flange_ratings_group_2_3.csv" := by decide +kernel
  have hc : ∀ m, checkList (fun name => w.read (join2 (joinSep (dirWay cs pkg tubePy)) name.toList)) (trueListing fs pkg) iter m =
      checkList (trueDisk fs pkg) (trueListing fs pkg) iter m := by
    intro m
    unfold checkList
    have : ((trueListing fs pkg).map fun n => (⟨n, firstLine (fun name => w.read (join2 (joinSep (dirWay cs pkg tubePy)) name.toList)) n⟩ : Materials.Entry)) =
        (trueListing fs pkg).map fun n => ⟨n, firstLine (trueDisk fs pkg) n⟩ := by
      refine List.map_congr_left fun n hn => ?_
      unfold firstLine
      simp only [hopen n (hi.listing n hn)]
    rw [this]
  unfold importTube
  have s1 := hstress "ASME_B31_1_stress_limits_welded.csv" (by decide +kernel)
  have s2 := hstress "ASME_B31_1_stress_limits_seamless.csv" (by decide +kernel)
  have t1 := htable "pipe_schedules.csv" (by decide +kernel)
  have t2 := htable "materials_list.csv" (by decide +kernel)
  have t3 := htable "ASME_B16_5_flange_ratings_group_2_1.csv" (by decide +kernel)
  have t4 := htable "ASME_B16_5_flange_ratings_group_2_2.csv" (by decide +kernel)
  have t5 := htable "ASME_B16_5_flange_ratings_group_2_3.csv" (by decide +kernel)
  have t6 := htable "ANSI_inch_internal_thread.csv" (by decide +kernel)
  have t7 := htable "ANSI_inch_external_thread.csv" (by decide +kernel)
  simp only [readFile, loadGroupFile, Flange.forEach, n1, n2, n3, hl, hc, s1, s2, t1, t2, t3, t4, t5, t6, t7]

/-- C141: so the directory makes no difference. -/
theorem C141_anywhere_partial (hi : Installed fs pkg) (hw : w.In cs) (hw' : w'.In cs') (hf : ¬ pkg ++ [tubePy] <+: cs)
    (hf' : ¬ pkg ++ [tubePy] <+: cs') (hx : ∀ p, NoTilde p → expand p = p) :
    importFrom u w expand (absStr (pkg ++ [tubePy])) iter = importFrom u w' expand (absStr (pkg ++ [tubePy])) iter := by
  rw [C141_import_partial hi hw hf hx, C141_import_partial hi hw' hf' hx]

/-- C141: `find_mechanisms` looks into the directory `data` of Cantera's package, wherever the process works, and even if its working
directory is gone. -/
theorem C141_mechanisms {getcwd : Py Str} (hp : ∀ d ∈ pkg, Name d) (hn : Name f) (n : fs.Node) :
    ∃ p, mechanismPath getcwd (absStr (pkg ++ [f])) = .ok p ∧ fs.walk n p = fs.at (pkg ++ ["data".toList]) := by
  have hdn : Name "data".toList := by refine ⟨?_, ?_, ?_, ?_⟩ <;> decide
  have ht : ∀ {g}, Name g → ∀ d ∈ pkg ++ [g], Name d := by
    intro g hg d hd
    rcases List.mem_append.mp hd with h | h
    · exact hp d h
    · rw [List.mem_singleton.mp h]; exact hg
  refine ⟨absStr (pkg ++ ["data".toList]), ?_, walk_abs (ht hdn) n⟩
  unfold mechanismPath
  rw [abspath_abs (ht hn)]
  simp only [ok_bind]
  rw [dirname_abs (fun d h => (hp d h).piece) hn.piece]
  have := join2_abs (cs := pkg) (l := ["data".toList]) (fun d h => (hp d h).piece) (by simpa using hdn.piece) (by simp)
  rw [joinSep_one] at this
  rw [this]

/-! ### Where it fails -/

/-- C141: the import asks for the working directory although `__file__` is absolute: when the directory is gone, it fails with what
`os.getcwd()` raises. -/
theorem C141_deleted {e : PyErr} (h : w.getcwd = .error e) (f : Str) (hf : f ≠ []) : importFrom u w expand f iter = .error e := by
  have : relpath w.getcwd f = .error e := by
    unfold relpath
    have h1 : abspath w.getcwd ['.'] = .error e := by
      unfold abspath
      rw [if_neg (by decide), h]; rfl
    rw [if_neg hf, h1]; rfl
  unfold importFrom dataDir
  rw [this]; rfl

/-- A file system with the package in `pkg`; every other name is that of an empty file. -/
def demo (pkg : List Str) : FS where
  Node := List Str
  root := []
  child d c := some (d ++ [c])
  parent d := d.dropLast
  content d := if d.dropLast = pkg ++ [lookupData] then (d.getLast?).bind fun n => shippedDisk (String.ofList n) else none
  names d := if d = pkg ++ [lookupData] then shipped.map (·.1) else []

theorem fold_snoc (l n : List Str) : List.foldlM (m := Option) (fun (d : List Str) (c : Str) => some (d ++ [c])) n l = some (n ++ l) := by
  induction l generalizing n with
  | nil => simp
  | cons c l ih =>
    rw [List.foldlM_cons]
    exact (ih (n ++ [c])).trans (by simp)

theorem demo_at (pkg cs : List Str) : (demo pkg).at cs = some cs := fold_snoc cs []

theorem demo_real {pkg cs : List Str} (h : ∀ c ∈ cs, Name c) : Real (demo pkg) cs cs := by
  induction cs using List.reverseRecOn with
  | nil => exact Real.root
  | append_singleton l c ih =>
    exact Real.sub (n := l) (ih fun d hd => h d (by simp [hd])) (h c (by simp)) rfl (by exact List.dropLast_concat (l₁ := l) (b := c))

theorem demo_disk (pkg : List Str) : trueDisk (demo pkg) pkg = shippedDisk := by
  funext n
  have e : pkg ++ [lookupData, n.toList] = (pkg ++ [lookupData]) ++ [n.toList] := by simp
  unfold trueDisk
  rw [demo_at, e]
  show (if ((pkg ++ [lookupData]) ++ [n.toList]).dropLast = pkg ++ [lookupData] then
    (((pkg ++ [lookupData]) ++ [n.toList]).getLast?).bind fun n => shippedDisk (String.ofList n) else none) = _
  rw [List.dropLast_concat, if_pos rfl, List.getLast?_concat, Option.bind_some, String.ofList_toList]

theorem demo_listing (pkg : List Str) : trueListing (demo pkg) pkg = shipped.map (·.1) := by
  unfold trueListing
  rw [demo_at]
  show (if pkg ++ [lookupData] = pkg ++ [lookupData] then shipped.map (·.1) else []) = _
  rw [if_pos rfl]

theorem demo_installed {pkg : List Str} (hp : ∀ d ∈ pkg, Name d) (ht : ∀ d ∈ pkg, NoTilde d) : Installed (demo pkg) pkg :=
  ⟨hp, ht, fun n hn => (table_names n (demo_listing pkg ▸ hn)).1⟩

/-- `/usr/pypbomb`, and the directory `/home/u`. -/
def demoPkg : List Str := ["usr".toList, "pypbomb".toList]
def demoCwd : List Str := ["home".toList, "u".toList]

theorem demoPkg_names : ∀ d ∈ demoPkg, Name d ∧ NoTilde d := by
  have : ∀ d ∈ demoPkg, (d ≠ [] ∧ '/' ∉ d ∧ d ≠ ['.'] ∧ d ≠ dotdot) ∧ d.head? ≠ some '~' := by decide
  exact this

theorem demoCwd_names : ∀ d ∈ demoCwd, Name d := by
  have : ∀ d ∈ demoCwd, d ≠ [] ∧ '/' ∉ d ∧ d ≠ ['.'] ∧ d ≠ dotdot := by decide
  exact this

/-- The hypotheses are met: `/usr/pypbomb/tube.py` imported in `/home/u` gives the shipped tables; the paths it opens are like
`../../usr/pypbomb/lookup_data/pipe_schedules.csv`. -/
theorem demo_imports (hiter : Materials.Enumerates iter) :
    ∃ T, importFrom u (⟨.ok (absStr demoCwd), demoCwd⟩ : Proc (demo demoPkg)) id (absStr (demoPkg ++ [tubePy])) iter = .ok T := by
  have hi := demo_installed (fun d h => (demoPkg_names d h).1) fun d h => (demoPkg_names d h).2
  obtain ⟨T, h, -⟩ := C74_import_succeeds (u := u) hiter
  refine ⟨T, ?_⟩
  refine (C141_import_partial hi (cs := demoCwd) ⟨demo_real demoCwd_names, rfl⟩ (by decide) (fun _ _ => rfl)).trans ?_
  rw [demo_disk, demo_listing]
  exact h

example : tablePath (.ok (absStr demoCwd)) (absStr (demoPkg ++ [tubePy])) "pipe_schedules.csv".toList =
    .ok "../../usr/pypbomb/lookup_data/pipe_schedules.csv".toList := by decide +kernel

/-- C141 is false: a process in that directory imports the package, and the same process does not once the directory is gone. -/
theorem C141_deleted_violated (hiter : Materials.Enumerates iter) :
    ∃ (fs : FS) (w w' : Proc fs) (T : Tables), w.In demoCwd ∧ w'.cwd = w.cwd ∧ w'.getcwd = .error (.fileNotFound "") ∧
      importFrom u w id (absStr (demoPkg ++ [tubePy])) iter = .ok T ∧
      importFrom u w' id (absStr (demoPkg ++ [tubePy])) iter = .error (.fileNotFound "") := by
  obtain ⟨T, h⟩ := demo_imports (u := u) hiter
  exact ⟨demo demoPkg, ⟨.ok (absStr demoCwd), demoCwd⟩, ⟨.error (.fileNotFound ""), demoCwd⟩, T,
    ⟨demo_real demoCwd_names, rfl⟩, rfl, rfl, h, C141_deleted rfl _ (by simp [absStr])⟩

/-- What `os.path.expanduser` does for a user whose home is `/root`. -/
def expandRoot : Str → Str
  | ['~'] => "/root".toList
  | '~' :: '/' :: r => "/root/".toList ++ r
  | p => p

theorem demo_walk_abs (pkg l : List Str) (h : ∀ c ∈ l, Name c) (n : (demo pkg).Node) : (demo pkg).walk n (absStr l) = some l := by
  rw [walk_abs h n]
  exact demo_at pkg l

/-- C141 is false also of a package in a directory called `~` when it is imported from the directory that contains it: its tables are
there, but pandas takes the `~` for the home directory and does not find them. -/
theorem C141_tilde_violated :
    ∃ (fs : FS) (w : Proc fs), w.In [] ∧ trueDisk fs [['~']] = shippedDisk ∧ trueListing fs [['~']] = shipped.map (·.1) ∧
      importFrom u w expandRoot (absStr ([['~']] ++ [tubePy])) iter =
        .error (.fileNotFound "ASME_B31_1_stress_limits_welded.csv") := by
  refine ⟨demo [['~']], ⟨.ok (absStr []), []⟩, ⟨Real.root, rfl⟩, demo_disk _, demo_listing _, ?_⟩
  have hd : dataDir (.ok (absStr [])) (absStr ([['~']] ++ [tubePy])) = .ok "~/lookup_data".toList := by decide +kernel
  have hx : expandRoot (join2 "~/lookup_data".toList "ASME_B31_1_stress_limits_welded.csv".toList) =
      absStr ["root".toList, lookupData, "ASME_B31_1_stress_limits_welded.csv".toList] := by decide +kernel
  have hw : ∀ w : Proc (demo [['~']]), w.read (absStr ["root".toList, lookupData, "ASME_B31_1_stress_limits_welded.csv".toList]) =
      none := by
    intro w
    unfold Proc.read
    rw [demo_walk_abs _ _ (by
      have : ∀ c ∈ ["root".toList, lookupData, "ASME_B31_1_stress_limits_welded.csv".toList],
        c ≠ [] ∧ '/' ∉ c ∧ c ≠ ['.'] ∧ c ≠ dotdot := by decide +kernel
      exact this)]
    have : ¬ ["root".toList, lookupData, "ASME_B31_1_stress_limits_welded.csv".toList].dropLast = [['~']] ++ [lookupData] := by
      decide +kernel
    show (if ["root".toList, lookupData, "ASME_B31_1_stress_limits_welded.csv".toList].dropLast = [['~']] ++ [lookupData] then
      (["root".toList, lookupData, "ASME_B31_1_stress_limits_welded.csv".toList].getLast?).bind fun n =>
        shippedDisk (String.ofList n) else none) = none
    rw [if_neg this]
  unfold importFrom
  simp only
  rw [hd]
  simp only [ok_bind, readFile, hx, hw]
  rfl

end Pypbomb.Paths
