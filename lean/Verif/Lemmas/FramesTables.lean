/-
The programs of `Verif.Model.Frames` for pipes, materials and threads compute what `Verif.Model.Tube` and
`Verif.Model.Bolt` say, under interference.
-/
import Verif.Lemmas.FramesFlange

namespace Pypbomb.Frames
open Quantity Flange

variable {T : List DF} {own : Own} {u : Registry}

theorem table_pipes (u : Registry) : (tables u lims)[pipeTable]? = some ofPipes := by
  simp [tables, pipeTable, lims, ratingTables]
theorem table_external (u : Registry) : (tables u lims)[externalTable]? = some (ofThreads Bolt.external) := by
  simp [tables, externalTable, lims, ratingTables]
theorem table_internal (u : Registry) : (tables u lims)[internalTable]? = some (ofThreads Bolt.internal) := by
  simp [tables, internalTable, lims, ratingTables]

theorem wp_series {a : ℕ} {d : DF} {name : String} {c : List Cell} {Q : Py (List (Cell × Cell)) → Own → Prop}
    (h : Sees T own a d) (hc : d.cols.lookup name = some c) (hq : Q (.ok (d.index.zip c)) own) :
    wp T (series a name) Q own := by
  unfold series
  refine wp_bind' (wp_read h ?_)
  simp only [hc]
  exact hq

theorem wp_bind_is {α β : Type} {p : Prog α} {v : Py α} {g : α → Prog β} {k : α → Py β}
    (h : wp T p (Is v) own) (hg : ∀ a o, v = .ok a → wp T (g a) (Is (k a)) o) :
    wp T (p >>= g) (Is (v >>= k)) own := by
  refine wp_bind' (wp_mono h ?_)
  rintro r o rfl
  cases r with
  | ok a => exact hg a o rfl
  | error e => exact rfl

/-! ### Materials -/

/-- `Tube.get_elastic_modulus`. -/
theorem wp_elasticModulus (hT : tables u lims <+: T) (reg : Registry) (m : Tube.MatIn) :
    wp T (materialQuantity reg m "ElasticModulus") (Is (Tube.elasticModulus reg m)) own := by
  unfold materialQuantity Tube.elasticModulus
  refine wp_lift_is fun _ _ => ?_
  refine wp_bind' (wp_materialCell hT m
    (f := fun r => .qty ⟨(r.2.2.1 : ℝ), PUnit.gigapascal, u.id⟩) (by simp [ofMaterials, List.lookup_cons]) fun o => ?_)
  cases Tube.materialRow m with
  | error e => exact rfl
  | ok r => exact rfl

/-- `Tube.get_density`. -/
theorem wp_density (hT : tables u lims <+: T) (reg : Registry) (m : Tube.MatIn) :
    wp T (materialQuantity reg m "Density") (Is (Tube.density reg m)) own := by
  unfold materialQuantity Tube.density
  refine wp_lift_is fun _ _ => ?_
  refine wp_bind' (wp_materialCell hT m
    (f := fun r => .qty ⟨(r.2.2.2.1 : ℝ) / 10, PUnit.gramPerCC, u.id⟩) (by simp [ofMaterials, List.lookup_cons])
    fun o => ?_)
  cases Tube.materialRow m with
  | error e => exact rfl
  | ok r => exact rfl

/-- `Tube.get_poisson`. -/
theorem wp_poisson (hT : tables u lims <+: T) (m : Tube.MatIn) :
    wp T (poisson m) (Is (Tube.poisson m)) own := by
  unfold poisson Tube.poisson
  refine wp_lift_is fun _ _ => ?_
  refine wp_bind' (wp_materialCell hT m
    (f := fun r => .num ((r.2.2.2.2 : ℝ) / 100)) (by simp [ofMaterials, List.lookup_cons]) fun o => ?_)
  cases Tube.materialRow m with
  | error e => exact rfl
  | ok r => exact rfl

/-! ### Pipes -/

/-- The cell of a row of the pipe table in a column. -/
noncomputable def pipeCellOf (r : String × List (Option Nat)) (c : String) : Cell :=
  cellOf (((Data.pipeCols.zip r.2).lookup c).join.map fun n : ℕ => (n : ℝ) / 1000)

theorem pipes_lookup (n : String) : ofPipes.cols.lookup n =
    if n ∈ Data.pipeCols then some (Data.pipeRows.map fun r => pipeCellOf r n) else none :=
  lookup_names (fun n => Data.pipeRows.map fun r => pipeCellOf r n) _ n

theorem label_str (s : String) : label (.str s) = s := rfl

theorem lookup_zipIdx {γ : Type} (l : List (String × γ)) (n : ℕ) (size : String) (g : ℕ → List Cell) :
    (((l.map fun r => Cell.str r.1).zipIdx n).map fun p => (label p.1, g p.2)).lookup size =
      (l.findIdx? fun r => r.1 = size).map fun i => g (n + i) := by
  induction l generalizing n with
  | nil => rfl
  | cons r l ih =>
    simp only [List.map_cons, List.zipIdx_cons, label_str, List.lookup_cons, List.findIdx?_cons]
    by_cases h : r.1 = size
    · subst h; simp
    · have h' : (size == r.1) = false := by simpa using fun e => h e.symm
      simp only [h', ih, h, decide_false]
      cases List.findIdx? (fun r => decide (r.1 = size)) l with
      | none => rfl
      | some i => simp [Nat.add_comm, Nat.add_left_comm]

theorem lookup_findIdx {γ : Type} (l : List (String × γ)) (size : String) :
    l.lookup size = ((l.findIdx? fun r => r.1 = size).bind fun i => l[i]?).map (·.2) := by
  induction l with
  | nil => rfl
  | cons r l ih =>
    rw [List.lookup_cons, List.findIdx?_cons]
    by_cases h : r.1 = size
    · subst h; simp
    · have h' : (size == r.1) = false := by simpa using fun e => h e.symm
      simp only [h', ih, h, decide_false]
      cases List.findIdx? (fun r => decide (r.1 = size)) l with
      | none => rfl
      | some i => simp

theorem find_findIdx {γ : Type} (l : List (String × γ)) (size : String) (f : String × γ → Cell) :
    ((l.map fun r => Cell.str r.1).zip (l.map f)).find? (fun p => label p.1 = size) =
      ((l.findIdx? fun r => r.1 = size).bind fun i => l[i]?).map fun r => (Cell.str r.1, f r) := by
  induction l with
  | nil => rfl
  | cons r l ih =>
    simp only [List.map_cons, List.zip_cons_cons, List.find?_cons, List.findIdx?_cons, label_str]
    by_cases h : r.1 = size
    · subst h; simp
    · simp only [h, decide_false, ih]
      cases List.findIdx? (fun r => decide (r.1 = size)) l with
      | none => rfl
      | some i => simp

theorem zip_lookup {γ : Type} {l : List String} {v : List γ} (hn : l.Nodup) (hl : l.length = v.length) :
    l.zip v = l.filterMap fun c => ((l.zip v).lookup c).map fun x => (c, x) := by
  induction l generalizing v with
  | nil => rfl
  | cons a l ih =>
    cases v with
    | nil => simp at hl
    | cons b v =>
      have hn' := List.nodup_cons.mp hn
      rw [List.zip_cons_cons, List.filterMap_cons]
      simp only [List.lookup_cons, beq_self_eq_true, Option.map_some]
      congr 1
      conv_lhs => rw [ih hn'.2 (by simpa using hl)]
      apply List.filterMap_congr
      intro c hc
      have : (c == a) = false := by
        have : c ≠ a := fun e => hn'.1 (e ▸ hc)
        simpa using this
      rw [this]

theorem schedules_row {l : List String} {v : List (Option Nat)} (hn : l.Nodup) (hl : l.length = v.length) :
    (((l.map Cell.str).zip (l.map fun c => cellOf (((l.zip v).lookup c).join.map fun n : ℕ => (n : ℝ) / 1000))).filter
      fun p => match p.2 with | .nan => false | _ => true).map (label ·.1) =
      ((l.zip v).filter (·.2.isSome)).map (·.1) := by
  conv_rhs => rw [zip_lookup hn hl]
  have key : ∀ (q : Cell → Bool), q .nan = false → (∀ x, q (.num x) = true) →
      ∀ (k : List String), (∀ c ∈ k, ∃ x, (l.zip v).lookup c = some x) →
      (((k.map Cell.str).zip (k.map fun c => cellOf (((l.zip v).lookup c).join.map fun n : ℕ => (n : ℝ) / 1000))).filter
        fun p => q p.2).map (fun p => label p.1) =
      ((k.filterMap fun c => ((l.zip v).lookup c).map fun x => (c, x)).filter (·.2.isSome)).map (·.1) := by
    intro q q0 q1 k
    induction k with
    | nil => intro _; rfl
    | cons c k ih =>
      intro h
      obtain ⟨x, hx⟩ := h c (by simp)
      have := ih fun c hc => h c (by simp [hc])
      cases x with
      | none =>
        simp only [List.map_cons, List.zip_cons_cons, hx, Option.join_some, Option.map_none, cellOf, Option.map_some,
          List.filterMap_cons, List.filter_cons, Option.isSome_none, q0]
        exact this
      | some y =>
        simp only [List.map_cons, List.zip_cons_cons, hx, Option.join_some, Option.map_some, cellOf,
          List.filterMap_cons, List.filter_cons, Option.isSome_some, q1, if_true, label_str]
        exact congrArg (c :: ·) this
  refine key (fun c => match c with | .nan => false | _ => true) rfl (fun _ => rfl) l fun c hc => ?_
  obtain ⟨i, hi⟩ := List.getElem?_of_mem hc
  have hi' : i < v.length := by rw [← hl]; exact (List.getElem?_eq_some_iff.mp hi).1
  have hmem : (c, v[i]) ∈ l.zip v := by
    refine List.mem_iff_getElem?.mpr ⟨i, ?_⟩
    simp [List.getElem?_zip_eq_some, hi]
  cases hlk : (l.zip v).lookup c with
  | some x => exact ⟨x, rfl⟩
  | none =>
    rw [List.lookup_eq_none_iff] at hlk
    simpa using hlk _ hmem

theorem pipes_rows : ∀ r ∈ Data.pipeRows, Data.pipeCols.length = r.2.length := by decide +kernel
theorem pipes_nodup : Data.pipeCols.Nodup := by decide +kernel

/-- `Tube.get_available_pipe_schedules`. -/
theorem wp_availableSchedules (hT : tables u lims <+: T) (size : String) :
    wp T (availableSchedules size) (Is (Tube.availableSchedules size)) own := by
  have hs := sees_table hT (table_pipes u)
  unfold availableSchedules Tube.availableSchedules Tube.pipeRow
  refine wp_bind' (wp_read (hs _) ?_)
  have hidx : ofPipes.index.map label = Data.pipeRows.map (·.1) := by
    simp only [ofPipes, List.map_map]
    rfl
  simp only [hidx, lookup_findIdx]
  by_cases hsz : size ∈ Data.pipeRows.map (·.1)
  · rw [if_neg (by simpa using hsz)]
    refine wp_bind' ?_
    unfold transpose
    refine wp_bind' (wp_read (hs _) ?_)
    refine wp_alloc fun t _ _ => ?_
    obtain ⟨r, hr, rfl⟩ := List.mem_map.mp hsz
    obtain ⟨i, hi⟩ : ∃ i, Data.pipeRows.findIdx? (fun x => x.1 = r.1) = some i := by
      rw [← Option.isSome_iff_exists, List.findIdx?_isSome]
      simp only [List.any_eq_true, decide_eq_true_eq]
      exact ⟨r, hr, rfl⟩
    obtain ⟨hlt, he, -⟩ := List.findIdx?_eq_some_iff_getElem.mp hi
    refine wp_bind' (wp_series (c := Data.pipeCols.map fun c => pipeCellOf (Data.pipeRows[i]) c) sees_put ?_ ?_)
    · have := lookup_zipIdx Data.pipeRows 0 r.1 fun i => ofPipes.cols.map fun c => c.2.getD i .nan
      simp only
      refine this.trans ?_
      rw [hi]
      simp only [Option.map_some, Nat.zero_add, ofPipes, List.map_map, Option.some.injEq]
      apply List.map_congr_left
      intro c _
      simp only [Function.comp, List.getD_eq_getElem?_getD, List.getElem?_map,
        List.getElem?_eq_getElem hlt, Option.map_some, Option.getD_some]
      rfl
    · refine wp_pure ?_
      rw [hi]
      simp only [Option.bind_some, List.getElem?_eq_getElem hlt, Option.map_some]
      have := schedules_row (v := (Data.pipeRows[i]).2) pipes_nodup (pipes_rows _ (List.getElem_mem hlt))
      have e : ofPipes.cols.map (fun c => Cell.str c.1) = Data.pipeCols.map Cell.str := by
        simp only [ofPipes, List.map_map]; rfl
      simp only [Is, e]
      rw [← this]
      rfl
  · rw [if_pos hsz]
    have hi : Data.pipeRows.findIdx? (fun x => x.1 = size) = none := by
      rw [List.findIdx?_eq_none_iff]
      intro x hx
      have : x.1 ≠ size := fun e => hsz (List.mem_map.mpr ⟨x, hx, e⟩)
      simpa using this
    rw [hi]
    exact rfl

theorem available_size {size : String} {av : List String} (h : Tube.availableSchedules size = .ok av) :
    ∃ r i, Data.pipeRows.findIdx? (fun x => x.1 = size) = some i ∧ Data.pipeRows[i]? = some r ∧
      av = (((Data.pipeCols.zip r.2).filter (·.2.isSome)).map (·.1)).erase "OD" := by
  unfold Tube.availableSchedules Tube.pipeRow at h
  rw [lookup_findIdx] at h
  cases hi : Data.pipeRows.findIdx? (fun x => x.1 = size) with
  | none => rw [hi] at h; cases h
  | some i =>
    rw [hi] at h
    cases hr : Data.pipeRows[i]? with
    | none => simp only [Option.bind_some, hr] at h; cases h
    | some r =>
      simp only [Option.bind_some, hr, Option.map_some, Except.ok.injEq] at h
      exact ⟨r, i, rfl, hr, h.symm⟩

theorem wp_pipeEntry (hT : tables u lims <+: T) {size name : String} {i : ℕ} {r : String × List (Option Nat)}
    (hi : Data.pipeRows.findIdx? (fun x => x.1 = size) = some i) (hr : Data.pipeRows[i]? = some r)
    (hn : name ∈ Data.pipeCols) {Q : Py Cell → Own → Prop} (hq : Q (.ok (pipeCellOf r name)) own) :
    wp T (pipeEntry name size) Q own := by
  have hs := sees_table hT (table_pipes u)
  unfold pipeEntry
  refine wp_bind' (wp_series (hs _) ((pipes_lookup name).trans (if_pos hn)) ?_)
  have := find_findIdx Data.pipeRows size fun r => pipeCellOf r name
  rw [hi] at this
  simp only [Option.bind_some, hr, Option.map_some] at this
  have e : ofPipes.index.zip (Data.pipeRows.map fun r => pipeCellOf r name) =
    (Data.pipeRows.map fun r => Cell.str r.1).zip (Data.pipeRows.map fun r => pipeCellOf r name) := rfl
  simp only [e, this]
  exact hq

/-- `Tube.get_dimensions`. -/
theorem wp_dimensions (hT : tables u lims <+: T) (reg : Registry) (size schedule : String) :
    wp T (dimensions reg size schedule) (Is (Tube.dimensions reg size schedule)) own := by
  unfold dimensions Tube.dimensions
  refine wp_bind_is (wp_availableSchedules hT size) fun av o hav => ?_
  by_cases hsch : schedule ∈ av
  · rw [if_neg (by simpa using hsch), if_neg (by simpa using hsch)]
    obtain ⟨r, i, hi, hr, rfl⟩ := available_size hav
    have hmem : schedule ∈ Data.pipeCols := by
      have h1 := List.mem_of_mem_erase hsch
      obtain ⟨p, hp, rfl⟩ := List.mem_map.mp h1
      exact (List.of_mem_zip (List.mem_filter.mp hp).1).1
    refine wp_bind' (wp_pipeEntry hT hi hr (by decide) ?_)
    refine wp_bind' (wp_pipeEntry hT hi hr hmem ?_)
    have hrow : Tube.pipeRow size = some r.2 := by
      unfold Tube.pipeRow
      rw [lookup_findIdx, hi]
      simp [hr]
    rw [hrow]
    simp only [Option.bind_some, pipeCellOf]
    cases h1 : ((Data.pipeCols.zip r.2).lookup "OD").join with
    | none => exact rfl
    | some a =>
      cases h2 : ((Data.pipeCols.zip r.2).lookup schedule).join with
      | none => exact rfl
      | some b => exact rfl
  · rw [if_pos hsch, if_pos hsch]
    exact rfl

/-! ### Threads -/

theorem threads_lookup (t : Bolt.Table) (n : String) : (ofThreads t).cols.lookup n =
    if n ∈ t.cols then some (t.rows.map fun r => cellOf (((t.cols.zip r.2.2).lookup n).map fun n : ℕ => (n : ℝ) / 10000))
    else none :=
  lookup_names (fun n => t.rows.map fun r : String × String × List ℕ =>
    cellOf (((t.cols.zip r.2.2).lookup n).map fun n : ℕ => (n : ℝ) / 10000)) _ n

theorem cellOf_none : cellOf none = .nan := rfl
theorem cellOf_some (x : ℝ) : cellOf (some x) = .num x := rfl

theorem atPair_cells (t : Bolt.Table) (prop size cls : String) :
    atPair size cls ((ofThreads t).index.zip (t.rows.map fun r =>
      cellOf (((t.cols.zip r.2.2).lookup prop).map fun n : ℕ => (n : ℝ) / 10000))) =
      (t.cells prop size cls).map fun n : ℕ => (n : ℝ) / 10000 := by
  unfold atPair Bolt.Table.cells ofThreads
  simp only
  generalize t.cols = cols
  induction t.rows with
  | nil => rfl
  | cons r l ih =>
    simp only [List.map_cons, List.zip_cons_cons, List.filterMap_cons, List.filter_cons]
    by_cases h : r.1 = size ∧ r.2.1 = cls
    · cases hx : (cols.zip r.2.2).lookup prop with
      | none => simp [h, hx, cellOf_none, ih]
      | some n => simp [h, hx, cellOf_some, ih]
    · cases hx : (cols.zip r.2.2).lookup prop with
      | none => simp [h, cellOf_none, ih]
      | some n => simp [h, cellOf_some, ih]

theorem wp_threadValue {a : ℕ} {t : Bolt.Table} (h : Sees T own a (ofThreads t)) {prop : String} (hp : prop ∈ t.cols)
    (size cls : String) : wp T (threadValue a prop size cls)
      (fun r o => r = t.get prop size cls ∧ o = own) own := by
  unfold threadValue Bolt.Table.get
  refine wp_bind' (wp_series h ((threads_lookup t prop).trans (if_pos hp)) ?_)
  simp only [atPair_cells]
  cases t.cells prop size cls with
  | nil => exact ⟨rfl, rfl⟩
  | cons a l =>
    cases l with
    | nil => exact ⟨rfl, rfl⟩
    | cons b l => exact ⟨rfl, rfl⟩

/-- `Bolt.get_thread_property`. -/
theorem wp_getThreadProperty (hT : tables u lims <+: T) (reg : Registry) (prop size cls : String) :
    wp T (getThreadProperty reg prop size cls) (Is (Bolt.getThreadProperty reg prop size cls)) own := by
  have key : ∀ (a : ℕ) (t : Bolt.Table), (tables u lims)[a]? = some (ofThreads t) →
      wp T (do
        let d ← read a
        if prop ∉ d.cols.map (·.1) then
          lift (.error (.keyError ("\nThread property '" ++ prop ++ "' not found. Available specs: '" ++
            String.intercalate "', '" (d.cols.map (·.1)) ++ "'")))
        else do
          let d ← read a
          if size ∉ d.index.map firstLevel then
            lift (.error (.keyError ("\nThread size '" ++ size ++ "' not found")))
          else do
            let s ← series a prop
            match atPair size cls s with
            | [] => lift (.error (.keyError cls))
            | l => pure (l.map fun x => (⟨x, PUnit.inch, reg.id⟩ : Quantity)))
      (Is (if prop ∉ t.cols then
        .error (.keyError ("\nThread property '" ++ prop ++ "' not found. Available specs: '" ++
          String.intercalate "', '" t.cols ++ "'"))
      else if size ∉ t.rows.map (·.1) then
        .error (.keyError ("\nThread size '" ++ size ++ "' not found"))
      else
        match t.cells prop size cls with
        | [] => .error (.keyError cls)
        | l => .ok (l.map fun n : ℕ => ⟨(n : ℝ) / 10000, PUnit.inch, reg.id⟩))) own := by
    intro a t ht
    have hs := sees_table hT ht
    have hc : (ofThreads t).cols.map (·.1) = t.cols := by
      simp only [ofThreads, List.map_map]
      exact List.map_id _
    have hi : (ofThreads t).index.map firstLevel = t.rows.map (·.1) := by
      simp only [ofThreads, List.map_map]
      rfl
    refine wp_bind' (wp_read (hs _) ?_)
    simp only [hc]
    by_cases hp : prop ∈ t.cols
    · rw [if_neg (by simpa using hp), if_neg (by simpa using hp)]
      refine wp_bind' (wp_read (hs _) ?_)
      simp only [hi]
      by_cases hsz : size ∈ t.rows.map (·.1)
      · rw [if_neg (by simpa using hsz), if_neg (by simpa using hsz)]
        refine wp_bind' (wp_series (hs _) ((threads_lookup t prop).trans (if_pos hp)) ?_)
        simp only [atPair_cells]
        cases t.cells prop size cls with
        | nil => exact rfl
        | cons a l =>
          simp only [List.map_cons]
          refine wp_pure ?_
          simp only [Is, List.map_map]
          rfl
      · rw [if_pos hsz, if_pos hsz]
        exact rfl
    · rw [if_pos hp, if_pos hp]
      exact rfl
  unfold getThreadProperty Bolt.getThreadProperty
  by_cases h1 : (pyIn "A" cls && (pyIn "2" cls || pyIn "3" cls)) = true
  · rw [if_pos h1, if_pos h1]
    exact wp_bind' (wp_lift (key _ _ (table_external u)))
  · rw [if_neg h1, if_neg h1]
    by_cases h2 : (pyIn "B" cls && (pyIn "2" cls || pyIn "3" cls)) = true
    · rw [if_pos h2, if_pos h2]
      exact wp_bind' (wp_lift (key _ _ (table_internal u)))
    · rw [if_neg h2, if_neg h2]
      exact wp_bind' (wp_lift rfl)

theorem wp_thread_is {β : Type} {a : ℕ} {t : Bolt.Table} (h : (tables u lims)[a]? = some (ofThreads t))
    (hT : tables u lims <+: T) {prop : String} (hp : prop ∈ t.cols) (size cls : String) {g : ℝ → Prog β} {k : ℝ → Py β}
    (hg : ∀ x, wp T (g x) (Is (k x)) own) :
    wp T (threadValue a prop size cls >>= g) (Is (t.get prop size cls >>= k)) own := by
  refine wp_bind' (wp_mono (wp_threadValue (sees_table hT h _) hp size cls) ?_)
  rintro r o ⟨rfl, rfl⟩
  cases t.get prop size cls with
  | ok a => exact hg a
  | error e => exact rfl

/-- `Bolt.calculate_stress_areas`. -/
theorem wp_stressAreas (hT : tables u lims <+: T) (reg : Registry) (size cls : String) (b p l : QIn) :
    wp T (stressAreas reg size cls b p l) (Is (Bolt.stressAreas reg size cls b p l)) own := by
  unfold stressAreas Bolt.stressAreas
  refine wp_lift_is fun _ _ => wp_lift_is fun _ _ => wp_lift_is fun _ _ => ?_
  refine wp_thread_is (table_internal u) hT (by decide) _ _ fun _ => ?_
  refine wp_thread_is (table_external u) hT (by decide) _ _ fun _ => ?_
  refine wp_thread_is (table_internal u) hT (by decide) _ _ fun _ => ?_
  refine wp_thread_is (table_external u) hT (by decide) _ _ fun _ => ?_
  cases parseDigits (splitLast '-' size) with
  | none => exact wp_bind' (wp_lift rfl)
  | some n =>
  refine wp_bind' (wp_lift ?_)
  refine wp_thread_is (table_external u) hT (by decide) _ _ fun _ => ?_
  exact wp_lift_is fun _ _ => wp_lift_is fun _ _ => wp_lift_is fun _ _ => wp_lift_is fun _ _ => wp_lift_is fun _ _ =>
    wp_lift_is fun _ _ => wp_lift_is fun _ _ => wp_lift_is fun _ _ => rfl

/-- `Bolt.calculate_safety_factors`. -/
theorem wp_safetyFactors (hT : tables u lims <+: T) (reg : Registry) (x a : QIn) (n : ℝ) (size cls : String)
    (b p l : QIn) :
    wp T (safetyFactors reg x a n size cls b p l) (Is (Bolt.safetyFactors reg x a n size cls b p l)) own := by
  unfold safetyFactors Bolt.safetyFactors
  refine wp_lift_is fun _ _ => wp_lift_is fun _ _ => wp_lift_is fun _ _ => wp_lift_is fun _ _ => wp_lift_is fun _ _ =>
    wp_lift_is fun _ _ => wp_lift_is fun _ _ => wp_lift_is fun _ _ => wp_lift_is fun _ _ => wp_lift_is fun _ _ =>
    wp_lift_is fun _ _ => wp_lift_is fun _ _ => wp_lift_is fun _ _ => ?_
  refine wp_bind_is (wp_stressAreas hT reg size cls _ _ _) fun _ _ _ => ?_
  exact wp_lift_is fun _ _ => wp_lift_is fun _ _ => wp_lift_is fun _ _ => wp_lift_is fun _ _ => wp_lift_is fun _ _ =>
    wp_lift_is fun _ _ => rfl

end Pypbomb.Frames
