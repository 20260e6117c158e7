/-
Reasoning about `Verif.Model.Frames`: code that only changes frames it created itself, under interference.
-/
import Verif.Model.Frames
import Verif.Lemmas.Flange

namespace Pypbomb.Frames
open Quantity

variable {α β : Type}

/-- The frames a thread has created, with their contents. -/
abbrev Own := ℕ → Option DF

/-- The memory contains the old frames `T`, unchanged, and the thread's own frames. -/
structure Agree (T : List DF) (own : Own) (m : Mem) : Prop where
  tables : T <+: m.frames
  owned : ∀ a d, own a = some d → T.length ≤ a ∧ m.frames[a]? = some d

/-- An operation changes no frame but the thread's own, and what it adds is new. -/
structure Local (own own' : Own) (m m' : Mem) : Prop where
  grows : m.frames.length ≤ m'.frames.length
  others : ∀ i < m.frames.length, own i = none → m'.frames[i]? = m.frames[i]?
  fresh : ∀ i, own i = none → own' i ≠ none → m.frames.length ≤ i

/-- Whatever other threads do to other frames, the code ends with a result satisfying `Q`. -/
def wp (T : List DF) : Prog α → (Py α → Own → Prop) → Own → Prop
  | .done r, Q, own => Q r own
  | .step f k, Q, own => ∀ m, Agree T own m →
      ∃ own', Agree T own' (f m) ∧ Local own own' m (f m) ∧ wp T (k m) Q own'

variable {T : List DF}

theorem wp_mono {p : Prog α} {Q Q' : Py α → Own → Prop} {own : Own} (h : wp T p Q own)
    (hq : ∀ r o, Q r o → Q' r o) : wp T p Q' own := by
  induction p generalizing own with
  | done r => exact hq _ _ h
  | step f k ih =>
    intro m hm
    obtain ⟨o, h1, h2, h3⟩ := h m hm
    exact ⟨o, h1, h2, ih m h3⟩

theorem wp_bind {p : Prog α} {g : α → Prog β} {Q : Py β → Own → Prop} {own : Own}
    (h : wp T p (fun r o => match r with
      | .ok a => wp T (g a) Q o
      | .error e => Q (.error e) o) own) : wp T (p.bind g) Q own := by
  induction p generalizing own with
  | done r =>
    cases r with
    | ok a => exact h
    | error e => exact h
  | step f k ih =>
    intro m hm
    obtain ⟨o, h1, h2, h3⟩ := h m hm
    exact ⟨o, h1, h2, ih m h3⟩

theorem wp_bind' {p : Prog α} {g : α → Prog β} {Q : Py β → Own → Prop} {own : Own}
    (h : wp T p (fun r o => match r with
      | .ok a => wp T (g a) Q o
      | .error e => Q (.error e) o) own) : wp T (p >>= g) Q own := wp_bind h

theorem Local.refl (own : Own) (m : Mem) : Local own own m m :=
  ⟨le_rfl, fun _ _ _ => rfl, fun _ h h' => absurd h h'⟩

/-- The frame at `a` is one of the old frames or one of the thread's own. -/
def Sees (T : List DF) (own : Own) (a : ℕ) (d : DF) : Prop := T[a]? = some d ∨ own a = some d

theorem Sees.read {own : Own} {a : ℕ} {d : DF} (h : Sees T own a d) {m : Mem} (hm : Agree T own m) :
    m.frames[a]? = some d := by
  rcases h with h | h
  · obtain ⟨l, hl⟩ := hm.tables
    rw [← hl, List.getElem?_append_left (List.getElem?_eq_some_iff.mp h).1, h]
  · exact (hm.owned a d h).2

theorem wp_read {Q : Py DF → Own → Prop} {own : Own} {a : ℕ} {d : DF} (h : Sees T own a d)
    (hq : Q (.ok d) own) : wp T (read a) Q own := by
  intro m hm
  refine ⟨own, hm, Local.refl _ _, ?_⟩
  simp only [h.read hm]
  exact hq

/-- `own` with the frame at `a` now `d`. -/
def Own.put (own : Own) (a : ℕ) (d : DF) : Own := fun i => if i = a then some d else own i

theorem wp_alloc {Q : Py ℕ → Own → Prop} {own : Own} {d : DF}
    (hq : ∀ a, T.length ≤ a → own a = none → Q (.ok a) (own.put a d)) : wp T (alloc d) Q own := by
  intro m hm
  have hn : own m.frames.length = none := by
    cases h : own m.frames.length with
    | none => rfl
    | some e =>
      have := (List.getElem?_eq_some_iff.mp (hm.owned _ _ h).2).1
      omega
  have hT : T.length ≤ m.frames.length := hm.tables.length_le
  refine ⟨own.put m.frames.length d, ⟨?_, ?_⟩, ⟨?_, ?_, ?_⟩, hq _ hT hn⟩
  · exact hm.tables.trans (List.prefix_append _ _)
  · intro a e h
    simp only [Own.put] at h
    split at h
    · rename_i ha
      subst ha
      cases h
      exact ⟨hT, by simp⟩
    · obtain ⟨h1, h2⟩ := hm.owned a e h
      exact ⟨h1, by simp only; rw [List.getElem?_append_left (List.getElem?_eq_some_iff.mp h2).1, h2]⟩
  · simp
  · intro i hi _
    simp only
    rw [List.getElem?_append_left hi]
  · intro i h0 h1
    simp only [Own.put] at h1
    split at h1
    · omega
    · exact absurd h0 h1

theorem modify_ne {γ : Type} {l : List γ} {a i : ℕ} {f : γ → γ} (h : a ≠ i) : (l.modify a f)[i]? = l[i]? := by
  rw [List.getElem?_modify]
  simp [h]

theorem wp_update {Q : Py Unit → Own → Prop} {own : Own} {a : ℕ} {d : DF} {f : DF → DF} (h : own a = some d)
    (hq : Q (.ok ()) (own.put a (f d))) : wp T (update a f) Q own := by
  intro m hm
  obtain ⟨hT, ha⟩ := hm.owned a d h
  refine ⟨own.put a (f d), ⟨?_, ?_⟩, ⟨?_, ?_, ?_⟩, hq⟩
  · obtain ⟨l, hl⟩ := hm.tables
    refine List.prefix_iff_eq_take.mpr ?_
    apply List.ext_getElem?
    intro i
    simp only
    rw [List.getElem?_take]
    split
    · rename_i hi
      rw [modify_ne (by omega), ← hl, List.getElem?_append_left hi]
    · rename_i hi
      rw [List.getElem?_eq_none (by omega)]
  · intro b e hb
    simp only [Own.put] at hb
    split at hb
    · rename_i hab
      subst hab
      cases hb
      refine ⟨hT, ?_⟩
      simp only
      rw [List.getElem?_modify, ha]
      simp
    · rename_i hab
      obtain ⟨h1, h2⟩ := hm.owned b e hb
      refine ⟨h1, ?_⟩
      simp only
      rw [modify_ne (Ne.symm hab), h2]
  · simp
  · intro i hi h0
    have : a ≠ i := by rintro rfl; rw [h] at h0; cases h0
    simp only
    rw [modify_ne this]
  · intro i h0 h1
    simp only [Own.put] at h1
    split at h1
    · rename_i hia; subst hia; rw [h] at h0; cases h0
    · exact absurd h0 h1

/-- Operations that leave the frames alone. -/
theorem wp_other {Q : Py α → Own → Prop} {own : Own} {f : Mem → Mem} {k : Mem → Prog α}
    (hf : ∀ m, (f m).frames = m.frames) (hq : ∀ m, wp T (k m) Q own) : wp T (.step f k) Q own := by
  intro m hm
  refine ⟨own, ⟨by rw [hf]; exact hm.tables, by rw [hf]; exact hm.owned⟩, ⟨by rw [hf], ?_, ?_⟩, hq m⟩
  · intro i _ _; rw [hf]
  · intro i h h'; exact absurd h h'

theorem wp_lift {x : Py α} {Q : Py α → Own → Prop} {own : Own} (h : Q x own) : wp T (lift x) Q own := h

theorem wp_pure {x : α} {Q : Py α → Own → Prop} {own : Own} (h : Q (.ok x) own) :
    wp T (pure x : Prog α) Q own := h

theorem wp_finally {p : Prog α} {c : Prog Unit} {Q : Py α → Own → Prop} {own : Own}
    (h : wp T p (fun r o => wp T (c.bind fun _ => .done r) Q o) own) : wp T (p.finally c) Q own := by
  induction p generalizing own with
  | done r => exact h
  | step f k ih =>
    intro m hm
    obtain ⟨o, h1, h2, h3⟩ := h m hm
    exact ⟨o, h1, h2, ih m h3⟩

/-- Frames that are no longer needed may be forgotten about; here: what a thread sees stays, when it gets new ones. -/
theorem Sees.put {own : Own} {a b : ℕ} {d e : DF} (h : Sees T own a d) (hb : own b = none) :
    Sees T (own.put b e) a d := by
  rcases h with h | h
  · exact Or.inl h
  · refine Or.inr ?_
    have : a ≠ b := by rintro rfl; rw [h] at hb; cases hb
    simp [Own.put, this, h]

theorem Sees.put_table {own : Own} {a b : ℕ} {d e : DF} (h : T[a]? = some d) : Sees T (own.put b e) a d := Or.inl h

theorem sees_put {own : Own} {a : ℕ} {d : DF} : Sees T (own.put a d) a d := Or.inr (by simp [Own.put])

/-! ### pandas -/

theorem wp_applymap {Q : Py ℕ → Own → Prop} {own : Own} {a : ℕ} {d : DF} {f : Cell → Cell} (h : Sees T own a d)
    (hq : ∀ b, T.length ≤ b → own b = none →
      Q (.ok b) (own.put b ⟨d.index, d.cols.map fun c => (c.1, c.2.map f)⟩)) : wp T (applymap a f) Q own := by
  unfold applymap
  exact wp_bind' (wp_read h (wp_alloc hq))

theorem lookup_map_snd {γ δ : Type} (f : String → γ → δ) (l : List (String × γ)) (n : String) :
    (l.map fun c => (c.1, f c.1 c.2)).lookup n = (l.lookup n).map (f n) := by
  induction l with
  | nil => rfl
  | cons c l ih =>
    rw [List.map_cons, List.lookup_cons, List.lookup_cons]
    by_cases h : n = c.1
    · subst h; simp
    · have : (n == c.1) = false := by simpa using h
      simp only [this, ih]

theorem known_num (k l : List ℝ) : known (k.map .num) (l.map .num) = k.zip l := by
  unfold known
  induction k generalizing l with
  | nil => rfl
  | cons a k ih =>
    cases l with
    | nil => rfl
    | cons b l =>
      have := ih l
      simp only [List.map_cons, List.zip_cons_cons, List.filterMap_cons, this]

theorem fill_num (z : List (ℝ × ℝ)) (k l : List ℝ) (h : k.length = l.length) :
    ((k.map Cell.num).zip (l.map Cell.num)).map (fillCell z) = l.map Cell.num := by
  induction k generalizing l with
  | nil =>
    cases l with
    | nil => rfl
    | cons b l => simp at h
  | cons a k ih =>
    cases l with
    | nil => rfl
    | cons b l =>
      have := ih l (by simpa using h)
      simp only [List.map_cons, List.zip_cons_cons, this, fillCell]

theorem fillColumn_last {k l : List ℝ} (h : k.length = l.length) (x : ℝ) :
    fillColumn (k.map .num ++ [.num x]) (l.map .num ++ [.nan]) =
      l.map .num ++ [.num (Flange.interpolate x (k.zip l))] := by
  have hk : known (k.map .num ++ [.num x]) (l.map .num ++ [.nan]) = k.zip l := by
    have := known_num k l
    unfold known at this ⊢
    rw [List.zip_append (by simp [h]), List.filterMap_append, this]
    simp
  unfold fillColumn
  rw [List.zip_append (by simp [h]), List.map_append, hk, fill_num _ _ _ h]
  rfl

/-- A frame of floats. -/
def numDF (index : List Cell) (cols : List (String × List ℝ)) : DF :=
  ⟨index, cols.map fun c => (c.1, c.2.map .num)⟩

/-- The interpolated row: every other column interpolated over the key column. -/
noncomputable def rowAt (cols : List (String × List ℝ)) (key : String) (kc : List ℝ) (x : ℝ) : List (String × Cell) :=
  (cols.filter fun c => c.1 ≠ key).map fun c => (c.1, .num (Flange.interpolate x (kc.zip c.2)))

theorem wp_quietInterpolate {Q : Py Unit → Own → Prop} {own : Own} {a : ℕ} {d : DF} (h : own a = some d)
    (hq : Q (.ok ()) (own.put a ⟨d.index, d.cols.map fun c => (c.1, fillColumn d.index c.2)⟩)) :
    wp T (quietInterpolate a) Q own := by
  unfold quietInterpolate
  refine wp_bind' ?_
  unfold enter
  refine wp_other (fun _ => rfl) fun m => ?_
  simp only [wp]
  refine wp_finally (wp_bind' ?_)
  unfold ignore
  refine wp_other (fun _ => rfl) fun m => ?_
  simp only [wp]
  unfold interpolateInPlace
  refine wp_update h ?_
  unfold leave
  refine wp_bind (wp_other (fun _ => rfl) fun m => ?_)
  simp only [wp]
  exact hq

theorem wp_prepare {Q : Py ℕ → Own → Prop} {own : Own} {base : ℕ} {key : String}
    {x : ℝ} {index : List Cell} {cols : List (String × List ℝ)} {kc : List ℝ}
    (h : Sees T own base (numDF index cols)) (hk : cols.lookup key = some kc)
    (hq : ∀ i o, o i = some ⟨kc.map Cell.num ++ [.num x],
      (cols.filter fun c => c.1 ≠ key).map fun c => (c.1, c.2.map .num ++ [.nan])⟩ → Q (.ok i) o) :
    wp T (prepare base key x) Q own := by
  unfold prepare
  refine wp_bind' ?_
  unfold empty
  refine wp_bind' (wp_read h (wp_alloc fun e he0 he1 => ?_))
  refine wp_bind' ?_
  unfold setColumn
  refine wp_update (d := ⟨[], (numDF index cols).cols.map fun c => (c.1, [])⟩) (by simp [Own.put]) ?_
  refine wp_bind' ?_
  unfold concat
  have hs : Sees T ((own.put e ⟨[], (numDF index cols).cols.map fun c => (c.1, [])⟩).put e
      ⟨[.num 0], cols.map fun c => (c.1, if c.1 = key then [.num x] else [.nan])⟩) base (numDF index cols) := by
    rcases h with h | h
    · exact Or.inl h
    · refine Or.inr ?_
      have : base ≠ e := by rintro rfl; rw [h] at he1; cases he1
      simp [Own.put, this, h]
  have hcols : (((numDF index cols).cols.map fun c => (c.1, ([] : List Cell))).map fun c =>
      (c.1, if c.1 = key then [Cell.num x] else [.nan])) =
      cols.map fun c => (c.1, if c.1 = key then [.num x] else [.nan]) := by
    simp [numDF, List.map_map, Function.comp_def]
  rw [hcols]
  refine wp_bind' (wp_read hs ?_)
  refine wp_bind' (wp_read sees_put ?_)
  refine wp_alloc fun c hc0 hc1 => ?_
  -- the concatenated frame
  have hcat : ((numDF index cols).cols.map fun c => (c.1, c.2 ++
      ((cols.map fun c => (c.1, if c.1 = key then [Cell.num x] else [.nan])).lookup c.1).getD [])) =
      cols.map fun c => (c.1, c.2.map .num ++ if c.1 = key then [.num x] else [.nan]) := by
    simp only [numDF, List.map_map]
    apply List.map_congr_left
    intro c hc
    have hl := lookup_map_snd (fun n (_ : List ℝ) => if n = key then [Cell.num x] else [.nan]) cols c.1
    simp only [Function.comp, hl]
    have : ∃ v, cols.lookup c.1 = some v := by
      cases hv : cols.lookup c.1 with
      | some v => exact ⟨v, rfl⟩
      | none =>
        rw [List.lookup_eq_none_iff] at hv
        simpa using hv c hc
    obtain ⟨v, hv⟩ := this
    rw [hv]
    rfl
  simp only [hcat]
  unfold setIndex
  refine wp_bind' (wp_read sees_put ?_)
  have hkey := lookup_map_snd (fun n (l : List ℝ) => l.map Cell.num ++ if n = key then [.num x] else [.nan]) cols key
  simp only [hk, Option.map_some, if_pos] at hkey
  simp only [hkey]
  refine wp_alloc fun i hi0 hi1 => ?_
  have hfil : ((cols.map fun c => (c.1, c.2.map Cell.num ++ if c.1 = key then [.num x] else [.nan])).filter
      fun c => c.1 ≠ key) =
      (cols.filter fun c => c.1 ≠ key).map fun c => (c.1, c.2.map .num ++ [.nan]) := by
    rw [List.filter_map]
    apply List.map_congr_left
    intro c hc
    have : c.1 ≠ key := by simpa using (List.mem_filter.mp hc).2
    simp [this]
  simp only [hfil]
  exact hq _ _ (by simp [Own.put])

theorem wp_interpolateAt {Q : Py (List (String × Cell)) → Own → Prop} {own : Own} {base : ℕ} {key : String}
    {x : ℝ} {index : List Cell} {cols : List (String × List ℝ)} {kc : List ℝ}
    (h : Sees T own base (numDF index cols)) (hk : cols.lookup key = some kc)
    (hlen : ∀ c ∈ cols, kc.length = c.2.length)
    (hq : ∀ o, Q (.ok (rowAt cols key kc x)) o) : wp T (interpolateAt base key x) Q own := by
  unfold interpolateAt
  refine wp_bind' (wp_prepare h hk fun i o hi => ?_)
  refine wp_bind' (wp_quietInterpolate hi ?_)
  have hfill : (((cols.filter fun c => c.1 ≠ key).map fun c => (c.1, c.2.map Cell.num ++ [.nan])).map fun c =>
      (c.1, fillColumn (kc.map Cell.num ++ [.num x]) c.2)) =
      (cols.filter fun c => c.1 ≠ key).map fun c =>
        (c.1, c.2.map .num ++ [.num (Flange.interpolate x (kc.zip c.2))]) := by
    rw [List.map_map]
    apply List.map_congr_left
    intro c hc
    have := hlen c (List.mem_filter.mp hc).1
    simp only [Function.comp, fillColumn_last this]
  simp only [hfill]
  unfold lastRow
  refine wp_bind' (wp_read sees_put ?_)
  refine wp_pure ?_
  have hlast : (((cols.filter fun c => c.1 ≠ key).map fun c =>
        (c.1, c.2.map Cell.num ++ [.num (Flange.interpolate x (kc.zip c.2))])).map fun c =>
        (c.1, c.2.getLast?.getD .nan)) = rowAt cols key kc x := by
    rw [List.map_map]
    apply List.map_congr_left
    intro c _
    simp
  simp only [hlast]
  exact hq _

end Pypbomb.Frames
