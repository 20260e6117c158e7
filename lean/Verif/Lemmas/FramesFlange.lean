/-
The programs of `Verif.Model.Frames` compute what `Verif.Model.Flange` and `Verif.Model.Tube` say, under interference.
-/
import Verif.Lemmas.Frames

namespace Pypbomb.Frames
open Quantity Flange

variable {T : List DF}

/-- A rating table with distinct column names and complete rows. -/
structure WF (f : Frame) : Prop where
  nodup : f.cols.Nodup
  temp : "Temperature" ∉ f.cols
  rows : f.rows ≠ []
  cell : ∀ r ∈ f.rows, ∀ c ∈ f.cols, ∃ v, (f.cols.zip r.2).lookup c = some v

theorem wf_shipped {tb : String × List String × List (Int × List (Option Nat))} (h : tb ∈ ratingTables) :
    WF (frameOf tb.2) := by
  have hc := table_cols tb h
  have h1 : "Temperature" ∉ classes.map (·.1) := by decide +kernel
  have h2 : ∀ tb ∈ ratingTables, tb.2.2 ≠ [] := by decide +kernel
  refine ⟨?_, ?_, ?_, ?_⟩
  · simp only [frameOf, hc]; exact classes_nodup
  · simp only [frameOf, hc]; exact h1
  · simp only [frameOf]
    intro h0
    exact h2 tb h (by simpa using h0)
  · intro r hr c hcm
    simp only [frameOf] at hr hcm ⊢
    obtain ⟨r', hr', rfl⟩ := List.mem_map.mp hr
    obtain ⟨i, hi⟩ := List.getElem?_of_mem hcm
    exact ⟨_, lookup_cell h hi hr'⟩

theorem lookup_names {γ : Type} (g : String → γ) (l : List String) (n : String) :
    (l.map fun c => (c, g c)).lookup n = if n ∈ l then some (g n) else none := by
  induction l with
  | nil => rfl
  | cons c l ih =>
    rw [List.map_cons, List.lookup_cons]
    by_cases h : n = c
    · subst h; simp
    · have : (n == c) = false := by simpa using h
      simp only [this, ih]
      simp [h]

theorem mags_qty (u : PUnit) (r : ℕ) (l : List ℝ) : mags (l.map fun x => .qty ⟨x, u, r⟩) = l := by
  unfold mags
  induction l with
  | nil => rfl
  | cons a l ih => simp only [List.map_cons, List.filterMap_cons, ih]

theorem extremum_qty (g : List ℝ → ℝ) (u : PUnit) (r : ℕ) {l : List ℝ} (h : l ≠ []) :
    extremum g (l.map fun x => .qty ⟨x, u, r⟩) = .ok ⟨g l, u, r⟩ := by
  have hm := mags_qty u r l
  cases l with
  | nil => exact absurd rfl h
  | cons a l =>
    simp only [List.map_cons] at hm ⊢
    simp only [extremum, hm]

theorem extremum_rows (g : List ℝ → ℝ) (u : PUnit) (r : ℕ) {γ : Type} {l : List γ} (f : γ → ℝ) (h : l ≠ []) :
    extremum g (l.map fun x => .qty ⟨f x, u, r⟩) = .ok ⟨g (l.map f), u, r⟩ := by
  have := extremum_qty g u r (l := l.map f) (by simpa using h)
  rw [List.map_map] at this
  exact this

theorem zip_filterMap {γ δ : Type} (l : List γ) (L : γ → Option δ) (g : γ → ℝ) (k : δ → ℝ)
    (h : ∀ r ∈ l, ∃ v, L r = some v) :
    (l.map g).zip ((l.filterMap L).map k) = l.filterMap fun r => (L r).map fun p => (g r, k p) := by
  induction l with
  | nil => rfl
  | cons a l ih =>
    obtain ⟨v, hv⟩ := h a (by simp)
    have := ih fun r hr => h r (by simp [hr])
    simp only [List.map_cons, List.filterMap_cons, hv, Option.map_some, List.zip_cons_cons, this]

theorem length_filterMap {γ δ : Type} (l : List γ) (L : γ → Option δ) (h : ∀ r ∈ l, ∃ v, L r = some v) :
    (l.filterMap L).length = l.length := by
  induction l with
  | nil => rfl
  | cons a l ih =>
    obtain ⟨v, hv⟩ := h a (by simp)
    have := ih fun r hr => h r (by simp [hr])
    simp only [List.filterMap_cons, hv, List.length_cons, this]

/-- The columns of a rating table in base units. -/
noncomputable def baseCols (f : Frame) : List (String × List ℝ) :=
  ("Temperature", f.rows.map fun r => (⟨r.1, PUnit.degC, 0⟩ : Quantity).phys) ::
    f.cols.map fun c => (c, (colBar f c).map fun p => (⟨p, PUnit.bar, 0⟩ : Quantity).phys)

theorem base_frame (u : Registry) (f : Frame) :
    (⟨(ofFrame u f).index, (ofFrame u f).cols.map fun c => (c.1, c.2.map toBase)⟩ : DF) =
      numDF (ofFrame u f).index (baseCols f) := by
  simp only [numDF, baseCols, ofFrame, List.map_cons, List.map_map, Function.comp_def,
    toBase, Quantity.phys]

theorem WF.curve {f : Frame} (h : WF f) {c : String} (hc : c ∈ f.cols) :
    (f.rows.map fun r => (⟨r.1, PUnit.degC, 0⟩ : Quantity).phys).zip
      ((colBar f c).map fun p => (⟨p, PUnit.bar, 0⟩ : Quantity).phys) = curveSI f c :=
  zip_filterMap _ _ _ _ fun r hr => h.cell r hr c hc

theorem WF.col_length {f : Frame} (h : WF f) {c : String} (hc : c ∈ f.cols) :
    (colBar f c).length = f.rows.length := length_filterMap _ _ fun r hr => h.cell r hr c hc

theorem WF.col_ne {f : Frame} (h : WF f) {c : String} (hc : c ∈ f.cols) : colBar f c ≠ [] := by
  intro h0
  have := h.col_length hc
  rw [h0] at this
  exact h.rows (List.length_eq_zero_iff.mp this.symm)

theorem WF.lookup_col {f : Frame} (h : WF f) (u : Registry) {c : String} (hc : c ∈ f.cols) :
    (ofFrame u f).cols.lookup c = some ((colBar f c).map fun p => .qty ⟨p, PUnit.bar, u.id⟩) := by
  have hn : (c == "Temperature") = false := by
    have : c ≠ "Temperature" := fun e => h.temp (e ▸ hc)
    simpa using this
  simp only [ofFrame, List.lookup_cons, hn]
  rw [lookup_names, if_pos hc]

theorem lookup_temp (u : Registry) (f : Frame) :
    (ofFrame u f).cols.lookup "Temperature" = some (f.rows.map fun r => .qty ⟨r.1, PUnit.degC, u.id⟩) := by
  simp [ofFrame]

/-! ### Steps shared by the functions -/

variable {Q : Py Unit → Own → Prop} {own : Own}

theorem wp_column {a : ℕ} {d : DF} {name : String} {c : List Cell} {Q : Py (List Cell) → Own → Prop}
    (h : Sees T own a d) (hc : d.cols.lookup name = some c) (hq : Q (.ok c) own) : wp T (column a name) Q own := by
  unfold column
  refine wp_bind' (wp_read h ?_)
  simp only [hc]
  exact hq

theorem wp_checkColumn {a : ℕ} {d : DF} {name msg : String} {q : Quantity} {c : List Cell} {u : PUnit} {r : ℕ}
    {l : List ℝ} (h : Sees T own a d) (hc : d.cols.lookup name = some c)
    (hx : ∀ g, extremum g c = .ok ⟨g l, u, r⟩)
    (hq : Q (Flange.checkRange q (seriesMin l) (seriesMax l) u r msg) own) :
    wp T (checkColumn a name q msg) Q own := by
  unfold checkColumn
  refine wp_bind' (wp_column h hc ?_)
  refine wp_bind' (wp_lift ?_)
  simp only [hx]
  refine wp_bind' (wp_column h hc ?_)
  refine wp_bind' (wp_lift ?_)
  simp only [hx]
  exact wp_lift hq

/-- The result of the code is `v`. -/
def Is {α : Type} (v : Py α) : Py α → Own → Prop := fun r _ => r = v

theorem wp_lift_is {α β : Type} {x : Py α} {g : α → Prog β} {k : α → Py β}
    (h : ∀ a, x = .ok a → wp T (g a) (Is (k a)) own) : wp T (lift x >>= g) (Is (x >>= k)) own := by
  refine wp_bind' (wp_lift ?_)
  cases x with
  | ok a => exact h a rfl
  | error e => exact rfl

theorem sees_table {u : Registry} (hT : tables u lims <+: T) {a : ℕ} {d : DF} (h : (tables u lims)[a]? = some d)
    (o : Own) : Sees T o a d := by
  obtain ⟨l, hl⟩ := hT
  refine Or.inl ?_
  rw [← hl, List.getElem?_append_left (List.getElem?_eq_some_iff.mp h).1, h]

theorem table_materials (u : Registry) : (tables u lims)[materialTable]? = some (ofMaterials u) := by
  simp [tables, materialTable, lims, ratingTables]

theorem keep_map {γ δ : Type} (l : List γ) (p : γ → Bool) (f : γ → δ) : keep (l.map p) (l.map f) = (l.filter p).map f := by
  unfold keep
  induction l with
  | nil => rfl
  | cons a l ih =>
    cases h : p a <;> simp [h, ih]

/-- The selected rows of the material table. -/
def selected (m : Tube.MatIn) : List (String × String × Nat × Nat × Nat) :=
  Data.materialRows.filter fun r => isGrade m (.str r.1)

theorem materialRow_selected (m : Tube.MatIn) :
    Tube.materialRow m = match selected m with | [] => .error .indexError | r :: _ => .ok r := by
  unfold Tube.materialRow selected
  cases m with
  | str s => rfl
  | other r => rfl

theorem wp_materialCell {u : Registry} (hT : tables u lims <+: T) (m : Tube.MatIn) {name : String}
    {f : String × String × Nat × Nat × Nat → Cell} {Q : Py Cell → Own → Prop}
    (hc : (ofMaterials u).cols.lookup name = some (Data.materialRows.map f))
    (hq : ∀ o, Q (do let r ← Tube.materialRow m; .ok (f r)) o) : wp T (materialCell m name) Q own := by
  have hs := sees_table hT (table_materials u)
  unfold materialCell
  refine wp_bind' (wp_column (hs _) (c := Data.materialRows.map fun r => .str r.1) rfl ?_)
  simp only [List.map_map]
  refine wp_bind' ?_
  unfold rowsWhere
  refine wp_bind' (wp_read (hs _) ?_)
  refine wp_alloc fun a _ _ => ?_
  refine wp_bind' (wp_column (d := ⟨keep (Data.materialRows.map ((fun c => isGrade m c) ∘ fun r => Cell.str r.1))
    (ofMaterials u).index, (ofMaterials u).cols.map fun c => (c.1, keep
      (Data.materialRows.map ((fun c => isGrade m c) ∘ fun r => Cell.str r.1)) c.2)⟩) (c := (selected m).map f)
      sees_put ?_ ?_)
  · have := lookup_map_snd (fun _ (l : List Cell) => keep
      (Data.materialRows.map ((fun c => isGrade m c) ∘ fun r => Cell.str r.1)) l) (ofMaterials u).cols name
    rw [hc] at this
    simp only [this, Option.map_some, keep_map]
    rfl
  · simp only
    have h := hq (own.put a ⟨keep (Data.materialRows.map ((fun c => isGrade m c) ∘ fun r => Cell.str r.1))
      (ofMaterials u).index, (ofMaterials u).cols.map fun c => (c.1, keep
        (Data.materialRows.map ((fun c => isGrade m c) ∘ fun r => Cell.str r.1)) c.2)⟩)
    rw [materialRow_selected] at h
    cases hsel : selected m with
    | nil => rw [hsel] at h; exact h
    | cons r l => rw [hsel] at h; exact h

/-- The group of a material and the address of its table. -/
def groupOf (m : Tube.MatIn) : Py (String × ℕ) := do
  Flange.checkMaterial m
  let r ← Tube.materialRow m
  match flangeTables.lookup r.2.1 with
  | none => .error (.keyError r.2.1)
  | some a => .ok (r.2.1, a)

theorem wp_groupTable {u : Registry} (hT : tables u lims <+: T) (m : Tube.MatIn)
    {Q : Py (String × ℕ) → Own → Prop} (hq : ∀ o, Q (groupOf m) o) : wp T (groupTable m) Q own := by
  have hs := sees_table hT (table_materials u)
  unfold groupTable
  refine wp_bind' ?_
  unfold checkGrade
  refine wp_bind' (wp_column (hs _) (c := Data.materialRows.map fun r => .str r.1) rfl ?_)
  refine wp_lift ?_
  have he : (if (Data.materialRows.map fun r => Cell.str r.1).any (isGrade m) then Except.ok ()
    else .error (.valueError (m.toStr ++ " not found in materials. Try Flange.available_materials"))) =
      Flange.checkMaterial m := by
    cases m with
    | str s =>
      have : (Data.materialRows.map fun r => Cell.str r.1).any (isGrade (.str s)) =
          decide (s ∈ Data.materialRows.map (·.1)) := by
        rw [Bool.eq_iff_iff]
        simp only [List.any_map, List.any_eq_true, Function.comp, isGrade, decide_eq_true_eq, List.mem_map]
      simp only [Flange.checkMaterial, this, decide_eq_true_eq]
      rfl
    | other r =>
      have : (Data.materialRows.map fun r => Cell.str r.1).any (isGrade (.other r)) = false := by
        simp [isGrade]
      rw [this]
      rfl
  rw [he]
  unfold groupOf at hq
  cases hm : Flange.checkMaterial m with
  | error e => rw [hm] at hq; exact hq _
  | ok _ =>
    rw [hm] at hq
    simp only [ok_bind] at hq ⊢
    refine wp_bind' (wp_materialCell hT m (f := fun r => .str r.2.1) rfl fun o => ?_)
    have := hq o
    cases hr : Tube.materialRow m with
    | error e => rw [hr] at this; exact this
    | ok r => rw [hr] at this; exact wp_lift this

theorem groupTable_cases (u : Registry) (m : Tube.MatIn) :
    (∃ e, groupOf m = .error e ∧ lookupGroup lims m = .error e) ∨
      ∃ tb ∈ ratingTables, ∃ a, groupOf m = .ok (tb.1, a) ∧ lookupGroup lims m = .ok (tb.1, frameOf tb.2) ∧
        (tables u lims)[a]? = some (ofFrame u (frameOf tb.2)) := by
  cases m with
  | other r => exact Or.inl ⟨_, rfl, rfl⟩
  | str s =>
    by_cases hs : s ∈ Data.materialRows.map (·.1)
    · right
      obtain ⟨row, hr, rfl⟩ := List.mem_map.mp hs
      obtain ⟨tb, ht⟩ := table_exists ⟨row, hr, rfl⟩
      have ht' := ht
      obtain ⟨htb, row', hr', e', he⟩ := ht'
      have key : ∀ r ∈ Data.materialRows,
          Data.materialRows.filter (fun x => decide (x.1 = r.1)) = [r] := by decide +kernel
      have e1 : row' = row := by
        have h1 := key row hr
        have : row' ∈ Data.materialRows.filter (fun x => decide (x.1 = row.1)) :=
          List.mem_filter.mpr ⟨hr', by simpa using e'⟩
        rw [h1] at this
        exact List.mem_singleton.mp this
      subst e1
      have hk : ∀ tb ∈ ratingTables, ∃ a ∈ ([0, 1, 2] : List ℕ), flangeTables.lookup tb.1 = some a ∧
          ratingTables[a]? = some tb := by
        intro tb htb
        simp only [ratingTables, List.mem_cons, List.not_mem_nil, or_false] at htb
        rcases htb with rfl | rfl | rfl
        · exact ⟨0, by simp, rfl, rfl⟩
        · exact ⟨1, by simp, rfl, rfl⟩
        · exact ⟨2, by simp, rfl, rfl⟩
      obtain ⟨a, -, hl, hg⟩ := hk tb htb
      refine ⟨tb, htb, a, ?_, lookupGroup_eq ht, ?_⟩
      · have h1 : Flange.checkMaterial (.str row'.1) = .ok () := by
          simp only [Flange.checkMaterial]
          rw [if_pos hs]
        have h2 : Tube.materialRow (.str row'.1) = .ok row' := by
          have hf := key row' hr
          unfold Tube.materialRow
          simp only at hf ⊢
          rw [hf]
        simp only [groupOf, h1, h2, ok_bind, ← he, hl]
      · unfold tables
        have hlt : a < ratingTables.length := (List.getElem?_eq_some_iff.mp hg).1
        rw [List.getElem?_append_left (by simpa using hlt)]
        simp only [lims, List.map_map, List.getElem?_map, hg]
        rfl
    · left
      have h1 : Flange.checkMaterial (.str s) =
          .error (.valueError (s ++ " not found in materials. Try Flange.available_materials")) := by
        simp only [Flange.checkMaterial]
        rw [if_neg hs]
      exact ⟨_, by simp only [groupOf, h1]; rfl, by simp only [lookupGroup, h1]; rfl⟩

theorem wp_is {α : Type} {p : Prog α} {v v' : Py α} (h : wp T p (Is v) own) (e : v = v') : wp T p (Is v') own :=
  e ▸ h

theorem rowAt_temp {f : Frame} (h : WF f) (t : ℝ) :
    rowAt (baseCols f) "Temperature" (f.rows.map fun r => (⟨r.1, PUnit.degC, 0⟩ : Quantity).phys) t =
      f.cols.map fun c => (c, .num (interpolate t (curveSI f c))) := by
  unfold rowAt baseCols
  rw [List.filter_cons_of_neg (by simp), List.filter_map, List.map_map]
  have : (f.cols.filter ((fun c : String × List ℝ => decide (c.1 ≠ "Temperature")) ∘ fun c =>
      (c, (colBar f c).map fun p => (⟨p, PUnit.bar, 0⟩ : Quantity).phys))) = f.cols := by
    rw [List.filter_eq_self]
    intro c hc
    have : c ≠ "Temperature" := fun e => h.temp (e ▸ hc)
    simpa using this
  rw [this]
  apply List.map_congr_left
  intro c hc
  simp only [Function.comp, h.curve hc]

theorem firstAtLeast_row (f : Frame) (t p : ℝ) :
    firstAtLeast (f.cols.map fun c => (c, .num (interpolate t (curveSI f c)))) p = firstClass f t p := by
  unfold firstAtLeast firstClass
  rw [List.filter_map]
  have : (atLeast p ∘ fun c => (c, .num (interpolate t (curveSI f c)))) =
      fun c => decide (p ≤ interpolate t (curveSI f c)) := by
    funext c; rfl
  rw [this]
  cases f.cols.filter fun c => decide (p ≤ interpolate t (curveSI f c)) with
  | nil => rfl
  | cons a l => rfl

theorem base_lengths {f : Frame} (h : WF f) : ∀ c ∈ baseCols f,
    (f.rows.map fun r => (⟨r.1, PUnit.degC, 0⟩ : Quantity).phys).length = c.2.length := by
  intro c hc
  simp only [baseCols, List.mem_cons, List.mem_map] at hc
  rcases hc with rfl | ⟨n, hn, rfl⟩
  · rfl
  · simp [h.col_length hn]

/-- `Flange.get_class`. -/
theorem wp_getClass {u : Registry} (hT : tables u lims <+: T) (reg : Registry) (x y : QIn) (m : Tube.MatIn) :
    wp T (getClass u reg x y m) (Is (Flange.getClass u reg x y m)) own := by
  unfold Flange.getClass
  rw [withLimits_eq]
  unfold getClass
  refine wp_lift_is fun p hp => wp_lift_is fun t ht => wp_lift_is fun _ _ => wp_lift_is fun _ _ =>
    wp_lift_is fun p _ => wp_lift_is fun t _ => ?_
  rcases groupTable_cases u m with ⟨e, h1, h2⟩ | ⟨tb, htb, a, h1, h2, h3⟩
  · rw [h2]
    refine wp_bind' (wp_groupTable hT m fun o => ?_)
    rw [h1]
    exact rfl
  · rw [h2]
    refine wp_bind' (wp_groupTable hT m fun o => ?_)
    rw [h1]
    have hwf := wf_shipped htb
    have hs : ∀ o, Sees T o a (ofFrame u (frameOf tb.2)) := by
      intro o
      obtain ⟨l, hl⟩ := hT
      refine Or.inl ?_
      rw [← hl, List.getElem?_append_left (List.getElem?_eq_some_iff.mp h3).1, h3]
    simp only [ok_bind]
    refine wp_bind' (wp_read (hs _) ?_)
    have hn : ((ofFrame u (frameOf tb.2)).cols.map (·.1)).drop 1 = (frameOf tb.2).cols := by
      simp [ofFrame, List.map_map, Function.comp_def]
    dsimp only
    rw [hn]
    have hcols : (frameOf tb.2).cols = classes.map (·.1) := table_cols tb htb
    rw [hcols, maxKey_eq]
    refine wp_bind' (wp_lift ?_)
    simp only [ok_bind]
    have h25 : "2500" ∈ (frameOf tb.2).cols := by rw [hcols]; decide +kernel
    refine wp_bind' (wp_column (hs _) (hwf.lookup_col u h25) ?_)
    refine wp_bind' (wp_lift ?_)
    rw [extremum_qty _ _ _ (hwf.col_ne h25)]
    unfold checkMaxPressure
    simp only [bind_assoc]
    refine wp_lift_is fun over _ => ?_
    refine wp_lift_is fun _ _ => ?_
    refine wp_bind' ?_
    refine wp_checkColumn (hs _) (lookup_temp u _) (fun g => extremum_rows g _ _ _ hwf.rows) ?_
    cases hr : Flange.checkRange t (seriesMin ((frameOf tb.2).rows.map (·.1)))
      (seriesMax ((frameOf tb.2).rows.map (·.1))) PUnit.degC u.id "Temperature out of range." with
    | error e => exact rfl
    | ok _ =>
      simp only [ok_bind]
      refine wp_bind' (wp_applymap (hs _) fun b _ _ => ?_)
      rw [base_frame]
      simp only
      refine wp_bind' (wp_interpolateAt (kc := (frameOf tb.2).rows.map fun r => (⟨r.1, PUnit.degC, 0⟩ : Quantity).phys)
        sees_put (by simp [baseCols]) (base_lengths hwf) fun o => ?_)
      simp only
      refine wp_lift ?_
      rw [rowAt_temp hwf, firstAtLeast_row]
      exact rfl

theorem names_eq (u : Registry) (f : Frame) : (ofFrame u f).cols.map (·.1) = "Temperature" :: f.cols := by
  simp [ofFrame, List.map_map, Function.comp_def]

theorem wp_checkClass {a : ℕ} {u : Registry} {f : Frame} {cls g : String} {Q : Py Unit → Own → Prop}
    (h : Sees T own a (ofFrame u f)) (hq : Q (Flange.checkClass cls (g, f)) own) :
    wp T (checkClass cls (g, a)) Q own := by
  unfold checkClass
  refine wp_bind' (wp_read h ?_)
  dsimp only
  rw [names_eq]
  exact wp_lift hq

/-- `Flange.get_max_pressure`. -/
theorem wp_getMaxPressure {u : Registry} (hT : tables u lims <+: T) (cls : String) (x : QIn) (m : Tube.MatIn) :
    wp T (getMaxPressure u cls x m) (Is (Flange.getMaxPressure u cls x m)) own := by
  unfold Flange.getMaxPressure
  rw [withLimits_eq]
  unfold getMaxPressure
  rcases groupTable_cases u m with ⟨e, h1, h2⟩ | ⟨tb, htb, a, h1, h2, h3⟩
  · rw [h2]
    refine wp_bind' (wp_groupTable hT m fun o => ?_)
    rw [h1]
    exact rfl
  · rw [h2]
    refine wp_bind' (wp_groupTable hT m fun o => ?_)
    rw [h1]
    have hwf := wf_shipped htb
    have hs := sees_table hT h3
    simp only [ok_bind]
    refine wp_bind' (wp_checkClass (hs _) ?_)
    cases hc : Flange.checkClass cls (tb.1, frameOf tb.2) with
    | error e => exact rfl
    | ok _ =>
      simp only [ok_bind]
      have hcm : cls ∈ "Temperature" :: (frameOf tb.2).cols := by
        unfold Flange.checkClass at hc
        by_contra h0
        rw [if_neg h0] at hc
        cases hc
      refine wp_lift_is fun t _ => ?_
      refine wp_bind' ?_
      refine wp_checkColumn (hs _) (lookup_temp u _) (fun g => extremum_rows g _ _ _ hwf.rows) ?_
      cases hr : Flange.checkRange t (seriesMin ((frameOf tb.2).rows.map (·.1)))
        (seriesMax ((frameOf tb.2).rows.map (·.1))) PUnit.degC u.id "Temperature out of range." with
      | error e => exact rfl
      | ok _ =>
        simp only [ok_bind]
        refine wp_bind' (wp_applymap (hs _) fun b _ _ => ?_)
        rw [base_frame]
        simp only
        refine wp_bind' (wp_interpolateAt
          (kc := (frameOf tb.2).rows.map fun r => (⟨r.1, PUnit.degC, 0⟩ : Quantity).phys)
          sees_put (by simp [baseCols]) (base_lengths hwf) fun o => ?_)
        simp only
        rw [rowAt_temp hwf]
        refine wp_bind' (wp_lift ?_)
        unfold entry
        rw [lookup_names]
        by_cases hcol : cls ∈ (frameOf tb.2).cols
        · have hne : cls ≠ "Temperature" := fun e => hwf.temp (e ▸ hcol)
          rw [if_pos hcol, if_neg hne]
          exact rfl
        · have he : cls = "Temperature" := by
            rcases List.mem_cons.mp hcm with h | h
            · exact h
            · exact absurd h hcol
          rw [if_neg hcol, if_pos he]
          exact rfl

theorem zip_swap (k l : List ℝ) : l.zip k = (k.zip l).map Prod.swap := by
  induction k generalizing l with
  | nil => simp
  | cons a k ih =>
    cases l with
    | nil => rfl
    | cons b l => rw [List.zip_cons_cons, List.zip_cons_cons, List.map_cons, ih l]; rfl

/-- `Flange.get_max_temperature`. -/
theorem wp_getMaxTemperature {u : Registry} (hT : tables u lims <+: T) (cls : String) (x : QIn) (m : Tube.MatIn) :
    wp T (getMaxTemperature u cls x m) (Is (Flange.getMaxTemperature u cls x m)) own := by
  unfold Flange.getMaxTemperature
  rw [withLimits_eq]
  unfold getMaxTemperature
  rcases groupTable_cases u m with ⟨e, h1, h2⟩ | ⟨tb, htb, a, h1, h2, h3⟩
  · rw [h2]
    refine wp_bind' (wp_groupTable hT m fun o => ?_)
    rw [h1]
    exact rfl
  · rw [h2]
    refine wp_bind' (wp_groupTable hT m fun o => ?_)
    rw [h1]
    have hwf := wf_shipped htb
    have hs := sees_table hT h3
    simp only [ok_bind]
    refine wp_bind' (wp_checkClass (hs _) ?_)
    cases hc : Flange.checkClass cls (tb.1, frameOf tb.2) with
    | error e => exact rfl
    | ok _ =>
      simp only [ok_bind]
      have hcm : cls ∈ "Temperature" :: (frameOf tb.2).cols := by
        unfold Flange.checkClass at hc
        by_contra h0
        rw [if_neg h0] at hc
        cases hc
      refine wp_lift_is fun p _ => ?_
      by_cases hne : cls = "Temperature"
      · rw [if_pos hne, if_pos hne]
        exact rfl
      · have hcol : cls ∈ (frameOf tb.2).cols := by
          rcases List.mem_cons.mp hcm with h | h
          · exact absurd h hne
          · exact h
        rw [if_neg hne, if_neg hne]
        refine wp_bind' ?_
        refine wp_checkColumn (hs _) (hwf.lookup_col u hcol) (fun g => extremum_qty g _ _ (hwf.col_ne hcol)) ?_
        cases hr : Flange.checkRange p (seriesMin (colBar (frameOf tb.2) cls))
          (seriesMax (colBar (frameOf tb.2) cls)) PUnit.bar u.id "Pressure out of range." with
        | error e => exact rfl
        | ok _ =>
          simp only [ok_bind]
          refine wp_bind' (wp_applymap (hs _) fun b _ _ => ?_)
          rw [base_frame]
          simp only
          refine wp_bind' ?_
          unfold select
          refine wp_bind' (wp_read sees_put ?_)
          have hl1 : (numDF (ofFrame u (frameOf tb.2)).index (baseCols (frameOf tb.2))).cols.lookup "Temperature" =
              some ((((frameOf tb.2).rows.map fun r => (⟨r.1, PUnit.degC, 0⟩ : Quantity).phys)).map .num) := by
            simp [numDF, baseCols]
          have hb : (baseCols (frameOf tb.2)).lookup cls =
              some ((colBar (frameOf tb.2) cls).map fun p => (⟨p, PUnit.bar, 0⟩ : Quantity).phys) := by
            have hn : (cls == "Temperature") = false := by simpa using hne
            simp only [baseCols, List.lookup_cons, hn]
            rw [lookup_names, if_pos hcol]
          have hl2 : (numDF (ofFrame u (frameOf tb.2)).index (baseCols (frameOf tb.2))).cols.lookup cls =
              some (((colBar (frameOf tb.2) cls).map fun p => (⟨p, PUnit.bar, 0⟩ : Quantity).phys).map .num) := by
            have := lookup_map_snd (fun _ (l : List ℝ) => l.map Cell.num) (baseCols (frameOf tb.2)) cls
            rw [hb] at this
            exact this
          simp only [Flange.forEach, hl1, hl2, ok_bind]
          refine wp_bind' (wp_lift ?_)
          simp only
          refine wp_alloc fun s hs0 hs1 => ?_
          simp only
          refine wp_bind' (wp_interpolateAt (index := (ofFrame u (frameOf tb.2)).index)
            (cols := [("Temperature", (frameOf tb.2).rows.map fun r => (⟨r.1, PUnit.degC, 0⟩ : Quantity).phys),
              (cls, (colBar (frameOf tb.2) cls).map fun p => (⟨p, PUnit.bar, 0⟩ : Quantity).phys)])
            (kc := (colBar (frameOf tb.2) cls).map fun p => (⟨p, PUnit.bar, 0⟩ : Quantity).phys)
            (Or.inr (by simp [Own.put, numDF])) ?_ ?_ fun o => ?_)
          · have hn : (cls == "Temperature") = false := by simpa using hne
            simp [List.lookup_cons, hn]
          · intro c hcmem
            simp only [List.mem_cons, List.not_mem_nil, or_false] at hcmem
            rcases hcmem with rfl | rfl
            · simp [hwf.col_length hcol]
            · simp
          · simp only
            have hrow : rowAt [("Temperature", (frameOf tb.2).rows.map fun r => (⟨r.1, PUnit.degC, 0⟩ : Quantity).phys),
                (cls, (colBar (frameOf tb.2) cls).map fun p => (⟨p, PUnit.bar, 0⟩ : Quantity).phys)] cls
                ((colBar (frameOf tb.2) cls).map fun p => (⟨p, PUnit.bar, 0⟩ : Quantity).phys) p.phys =
                [("Temperature", .num (interpolate p.phys ((curveSI (frameOf tb.2) cls).map Prod.swap)))] := by
              unfold rowAt
              rw [List.filter_cons_of_pos (by simpa using Ne.symm hne), List.filter_cons_of_neg (by simp)]
              simp only [List.filter_nil, List.map_cons, List.map_nil]
              rw [← hwf.curve hcol, ← zip_swap]
            rw [hrow]
            refine wp_bind' (wp_lift ?_)
            have he : entry [("Temperature", .num (interpolate p.phys ((curveSI (frameOf tb.2) cls).map Prod.swap)))]
                "Temperature" = .ok (interpolate p.phys ((curveSI (frameOf tb.2) cls).map Prod.swap)) := by
              simp [entry]
            rw [he]
            exact rfl

theorem floats_num (l : List ℝ) : floats (l.map .num) = l := by
  unfold floats
  induction l with
  | nil => rfl
  | cons a l ih => simp only [List.map_cons, List.filterMap_cons, ih]

/-- `Tube.calculate_max_stress`. -/
theorem wp_maxStress {u : Registry} (hT : tables u lims <+: T) (reg : Registry) (x : QIn) (material : String)
    (welded : Bool) : wp T (maxStress reg x material welded) (Is (Tube.maxStress reg x material welded)) own := by
  unfold Tube.maxStress maxStress
  refine wp_lift_is fun t _ => ?_
  have htab : (tables u lims)[stressTable welded]? = some (ofStress (Tube.limits welded)) := by
    cases welded <;> simp [tables, stressTable, lims, ratingTables]
  have hs := sees_table hT htab
  refine wp_bind' ?_
  unfold stressLimits Tube.stressLimits
  refine wp_bind' ?_
  unfold select
  refine wp_bind' (wp_read (hs _) ?_)
  have hl : ∀ n, (ofStress (Tube.limits welded)).cols.lookup n =
      if n ∈ "Temp" :: (Tube.limits welded).cols then
        some (((Tube.limits welded).rows.filterMap fun r => Tube.cell (Tube.limits welded).cols n r).map .num)
      else none := fun n => lookup_names _ _ n
  simp only [Flange.forEach, hl, if_pos (show "Temp" ∈ "Temp" :: (Tube.limits welded).cols by simp), ok_bind]
  by_cases hm : material ∈ "Temp" :: (Tube.limits welded).cols
  · simp only [if_pos hm, ok_bind]
    refine wp_bind' (wp_lift ?_)
    simp only
    refine wp_alloc fun s _ _ => ?_
    simp only
    refine wp_bind' ?_
    unfold setNames
    refine wp_update (by simp [Own.put]; rfl) ?_
    simp only [List.map_cons, List.map_nil, List.zip_cons_cons, List.zip_nil_left]
    refine wp_bind' (wp_column sees_put (by simp [List.lookup_cons]; rfl) ?_)
    simp only
    refine wp_bind' (wp_column sees_put (by simp; rfl) ?_)
    simp only [floats_num]
    refine wp_pure ?_
    have hzip : ((Tube.limits welded).rows.filterMap fun r => Tube.cell (Tube.limits welded).cols "Temp" r).zip
        ((Tube.limits welded).rows.filterMap fun r => Tube.cell (Tube.limits welded).cols material r) =
        (Tube.limits welded).rows.filterMap fun r => (Tube.cell (Tube.limits welded).cols material r).map fun y =>
          ((r.1 : ℝ), y) := by
      have h0 : ∀ r ∈ (Tube.limits welded).rows, ∃ v, Tube.cell (Tube.limits welded).cols material r = some v := by
        intro r hr
        unfold Tube.cell
        split
        · exact ⟨_, rfl⟩
        · rename_i hne
          have hm' : material ∈ (Tube.limits welded).cols := by
            rcases List.mem_cons.mp hm with h | h
            · exact absurd h hne
            · exact h
          have key : ∀ w, ∀ r ∈ (Tube.limits w).rows, ∀ c ∈ (Tube.limits w).cols,
              (((Tube.limits w).cols.zip r.2).lookup c).isSome = true := by decide +kernel
          obtain ⟨v, hv⟩ := Option.isSome_iff_exists.mp (key welded r hr material hm')
          rw [hv]
          exact ⟨_, rfl⟩
      have h1 : ((Tube.limits welded).rows.filterMap fun r => Tube.cell (Tube.limits welded).cols "Temp" r) =
          (Tube.limits welded).rows.map fun r => (r.1 : ℝ) := by
        rw [← List.filterMap_eq_map]
        rfl
      have h2 := zip_filterMap (Tube.limits welded).rows (Tube.cell (Tube.limits welded).cols material)
        (fun r => (r.1 : ℝ)) id h0
      rw [List.map_id] at h2
      rw [h1]
      exact h2
    rw [hzip]
    simp only
    split
    · exact wp_lift_is fun _ _ => rfl
    · exact rfl
  · simp only [if_neg hm]
    exact wp_bind' (wp_lift rfl)

end Pypbomb.Frames
