/-
C90: lookups in the tables (flange ratings, allowable stresses, pipes, materials, threads) made from any number of threads, in any order and interleaving,
return what each call alone would return, always end, and never change a table.
C91: the warning filters of the process.
-/
import Verif.Lemmas.FramesTables
import Verif.Props.Flange
import Verif.Props.TubeTables

namespace Pypbomb.Frames
open Quantity

/-- What a call is worth according to Verif.Model.Flange, Verif.Model.Tube and Verif.Model.Bolt (the subject of C19-C31
and C41-C49). -/
noncomputable def Call.value (u : Registry) : Call → Py Value
  | .getClass reg x y m => do let s ← Flange.getClass u reg x y m; .ok (.cls s)
  | .maxPressure c x m => do let q ← Flange.getMaxPressure u c x m; .ok (.quantity q)
  | .maxTemperature c x m => do let q ← Flange.getMaxTemperature u c x m; .ok (.quantity q)
  | .maxStress reg x m w => do let q ← Tube.maxStress reg x m w; .ok (.quantity q)
  | .schedules size => do let l ← Tube.availableSchedules size; .ok (.names l)
  | .dimensions reg size sch => do let d ← Tube.dimensions reg size sch; .ok (.dimensions d)
  | .elasticModulus reg m => do let q ← Tube.elasticModulus reg m; .ok (.quantity q)
  | .density reg m => do let q ← Tube.density reg m; .ok (.quantity q)
  | .poisson m => do let x ← Tube.poisson m; .ok (.number x)
  | .threadProperty reg p s c => do let l ← Bolt.getThreadProperty reg p s c; .ok (.quantities l)
  | .stressAreas reg s c b p l => do let a ← Bolt.stressAreas reg s c b p l; .ok (.areas a)
  | .safetyFactors reg x a n s c b p l => do let f ← Bolt.safetyFactors reg x a n s c b p l; .ok (.factors f)

/-- The module has been imported: its nine tables are in memory (with anything else after them), and there is a list
of warning filters. -/
structure Imported (u : Registry) (m : Mem) : Prop where
  tables : ∃ flange rest, Flange.loadAll Flange.shipped = .ok flange ∧ m.frames = tables u flange ++ rest
  filters : m.current < m.filters.length

/-- Threads that have each been given a call. -/
noncomputable def start (u : Registry) (m : Mem) (calls : List Call) : State := ⟨m, calls.map (Call.prog u)⟩

theorem Imported.prefix {u : Registry} {m : Mem} (h : Imported u m) : Frames.tables u Flange.lims <+: m.frames := by
  obtain ⟨fl, rest, h1, h2⟩ := h.tables
  rw [Flange.load_shipped] at h1
  cases h1
  rw [h2]
  exact List.prefix_append _ _

variable {u : Registry} {T : List DF} {own : Own}

theorem wp_value {α : Type} {p : Prog α} {v : Py α} (k : α → Value) (h : wp T p (Is v) own) :
    wp T (p.bind fun a => .done (.ok (k a))) (Is (do let a ← v; .ok (k a))) own := by
  refine wp_bind (wp_mono h ?_)
  rintro r o rfl
  cases r with
  | ok a => exact rfl
  | error e => exact rfl

theorem wp_call (hT : Frames.tables u Flange.lims <+: T) (c : Call) : wp T (c.prog u) (Is (c.value u)) own := by
  cases c with
  | getClass reg x y m => exact wp_value _ (wp_getClass hT reg x y m)
  | maxPressure c x m => exact wp_value _ (wp_getMaxPressure hT c x m)
  | maxTemperature c x m => exact wp_value _ (wp_getMaxTemperature hT c x m)
  | maxStress reg x m w => exact wp_value _ (wp_maxStress hT reg x m w)
  | schedules size => exact wp_value _ (wp_availableSchedules hT size)
  | dimensions reg size sch => exact wp_value _ (wp_dimensions hT reg size sch)
  | elasticModulus reg m => exact wp_value _ (wp_elasticModulus hT reg m)
  | density reg m => exact wp_value _ (wp_density hT reg m)
  | poisson m => exact wp_value _ (wp_poisson hT m)
  | threadProperty reg p s c => exact wp_value _ (wp_getThreadProperty hT reg p s c)
  | stressAreas reg s c b p l => exact wp_value _ (wp_stressAreas hT reg s c b p l)
  | safetyFactors reg x a n s c b p l => exact wp_value _ (wp_safetyFactors hT reg x a n s c b p l)

/-! ### Interleaving -/

/-- Every thread sees the old frames and its own, no frame has two owners, and every thread will end with the value of
its call. -/
def Inv (u : Registry) (T : List DF) (calls : List Call) (s : State) (own : ℕ → Own) : Prop :=
  T <+: s.mem.frames ∧ (∀ i, Agree T (own i) s.mem) ∧ (∀ i j a, own i a ≠ none → own j a ≠ none → i = j) ∧
    s.threads.length = calls.length ∧
    ∀ i p c, s.threads[i]? = some p → calls[i]? = some c → wp T p (Is (c.value u)) (own i)

theorem inv_tick {calls : List Call} {s : State} {own : ℕ → Own} (h : Inv u T calls s own) (i : ℕ) :
    ∃ own', Inv u T calls (s.tick i) own' := by
  obtain ⟨hT, hA, hD, hL, hW⟩ := h
  unfold State.tick
  cases hp : s.threads[i]? with
  | none => exact ⟨own, hT, hA, hD, hL, hW⟩
  | some p =>
    cases p with
    | done r => exact ⟨own, hT, hA, hD, hL, hW⟩
    | step f k =>
      have hi : i < calls.length := by
        rw [← hL]; exact (List.getElem?_eq_some_iff.mp hp).1
      obtain ⟨c, hc⟩ : ∃ c, calls[i]? = some c := ⟨_, List.getElem?_eq_getElem hi⟩
      obtain ⟨o, h1, h2, h3⟩ := hW i _ c hp hc s.mem (hA i)
      refine ⟨fun j => if j = i then o else own j, ?_, ?_, ?_, ?_, ?_⟩
      · exact h1.tables
      · intro j
        by_cases hj : j = i
        · subst hj; simpa using h1
        · simp only [hj, if_false]
          refine ⟨h1.tables, fun a d ha => ?_⟩
          obtain ⟨g1, g2⟩ := (hA j).owned a d ha
          refine ⟨g1, ?_⟩
          have hn : own i a = none := by
            by_contra h0
            exact hj (hD j i a (by rw [ha]; simp) h0)
          rw [h2.others a (List.getElem?_eq_some_iff.mp g2).1 hn, g2]
      · have low : ∀ j a, own j a ≠ none → a < s.mem.frames.length := by
          intro j a ha
          obtain ⟨d, hd⟩ := Option.ne_none_iff_exists'.mp ha
          exact (List.getElem?_eq_some_iff.mp ((hA j).owned a d hd).2).1
        have key : ∀ j a, j ≠ i → own j a ≠ none → o a = none := by
          intro j a hj ha
          by_contra h0
          have hn : own i a = none := by
            by_contra h0'
            exact hj (hD j i a ha h0')
          have := h2.fresh a hn h0
          have := low j a ha
          omega
        intro j l a hj hl
        by_cases e1 : j = i <;> by_cases e2 : l = i
        · rw [e1, e2]
        · simp only [e1, e2, if_true, if_false] at hj hl
          exact absurd (key l a e2 hl) hj
        · simp only [e1, e2, if_true, if_false] at hj hl
          exact absurd (key j a e1 hj) hl
        · simp only [e1, e2, if_false] at hj hl
          exact hD j l a hj hl
      · simpa using hL
      · intro j p c' hj hc'
        by_cases e : j = i
        · subst e
          rw [List.getElem?_set_self (by rw [hL]; exact hi)] at hj
          cases hj
          rw [hc] at hc'
          cases hc'
          simpa using h3
        · rw [List.getElem?_set_ne (Ne.symm e)] at hj
          simpa [e] using hW j p c' hj hc'

theorem inv_run {calls : List Call} (schedule : List ℕ) {s : State} {own : ℕ → Own} (h : Inv u T calls s own) :
    ∃ own', Inv u T calls (s.run schedule) own' := by
  induction schedule generalizing s own with
  | nil => exact ⟨own, h⟩
  | cons i l ih =>
    obtain ⟨o, ho⟩ := inv_tick h i
    exact ih ho

theorem inv_start {m : Mem} (h : Imported u m) (calls : List Call) :
    Inv u m.frames calls (start u m calls) fun _ _ => none := by
  refine ⟨List.prefix_rfl, fun i => ⟨List.prefix_rfl, fun a d hd => by cases hd⟩, fun i j a h0 => absurd rfl h0,
    by simp [start], ?_⟩
  intro i p c hp hc
  simp only [start, List.getElem?_map, hc, Option.map_some, Option.some.injEq] at hp
  subst hp
  exact wp_call h.prefix c

/-- C90: after the import, let any number of threads each make one call (`get_class`, `get_max_pressure`,
`get_max_temperature` of flanges; `calculate_max_stress`, `get_available_pipe_schedules`, `get_dimensions`,
`get_elastic_modulus`, `get_density`, `get_poisson` of tubes; `get_thread_property`, `calculate_stress_areas`,
`calculate_safety_factors` of bolts; with any arguments, some of them invalid), and let the threads take turns in any
way.  At every moment: a call that has ended has returned, or raised, what the call
returns or raises alone; and every DataFrame that existed before, in particular the module's tables, is as it was. -/
theorem C90_any_schedule {m : Mem} (h : Imported u m) (calls : List Call) (schedule : List ℕ) :
    (∀ (i : ℕ) (r : Py Value), ((start u m calls).run schedule).threads[i]? = some (.done r) →
      ∃ c, calls[i]? = some c ∧ r = c.value u) ∧
    ∀ a < m.frames.length, ((start u m calls).run schedule).mem.frames[a]? = m.frames[a]? := by
  obtain ⟨own, hT, hA, hD, hL, hW⟩ := inv_run schedule (inv_start h calls)
  constructor
  · intro i r hr
    have hi : i < calls.length := by rw [← hL]; exact (List.getElem?_eq_some_iff.mp hr).1
    exact ⟨_, List.getElem?_eq_getElem hi, hW i _ _ hr (List.getElem?_eq_getElem hi)⟩
  · intro a ha
    obtain ⟨l, hl⟩ := hT
    rw [← hl, List.getElem?_append_left ha]

/-! ### Progress -/

/-- The code ends after at most `n` operations, whatever the memory is when each is performed. -/
def Ends {α : Type} : ℕ → Prog α → Prop
  | _, .done _ => True
  | 0, .step _ _ => False
  | n + 1, .step _ k => ∀ m, Ends n (k m)

theorem Ends.mono {α : Type} {p : Prog α} {a b : ℕ} (h : Ends a p) (hab : a ≤ b) : Ends b p := by
  induction p generalizing a b with
  | done r => cases b <;> trivial
  | step f k ih =>
    cases a with
    | zero => exact absurd h (by simp [Ends])
    | succ a =>
      cases b with
      | zero => omega
      | succ b => exact fun m => ih m (h m) (by omega)

theorem Ends.bind {α β : Type} {p : Prog α} {g : α → Prog β} {a b : ℕ} (h : Ends a p) (hg : ∀ x, Ends b (g x)) :
    Ends (a + b) (p.bind g) := by
  induction p generalizing a with
  | done r =>
    cases r with
    | ok x => exact (hg x).mono (by omega)
    | error e => cases hab : a + b <;> simp [Prog.bind, Ends]
  | step f k ih =>
    cases a with
    | zero => exact absurd h (by simp [Ends])
    | succ a =>
      have : a + 1 + b = (a + b) + 1 := by omega
      rw [this]
      exact fun m => ih m (h m)

theorem Ends.bind' {α β : Type} {p : Prog α} {g : α → Prog β} {a b : ℕ} (h : Ends a p) (hg : ∀ x, Ends b (g x)) :
    Ends (a + b) (p >>= g) := Ends.bind h hg

theorem Ends.finally {α : Type} {p : Prog α} {c : Prog Unit} {a b : ℕ} (h : Ends a p) (hc : Ends b c) :
    Ends (a + b) (p.finally c) := by
  induction p generalizing a with
  | done r =>
    refine Ends.mono (Ends.bind (b := 0) hc fun _ => ?_) (by omega)
    trivial
  | step f k ih =>
    cases a with
    | zero => exact absurd h (by simp [Ends])
    | succ a =>
      have : a + 1 + b = (a + b) + 1 := by omega
      rw [this]
      exact fun m => ih m (h m)

theorem Ends.lift {α : Type} {x : Py α} : Ends 0 (lift x) := trivial
theorem Ends.pure {α : Type} {x : α} : Ends 0 (Pure.pure x : Prog α) := trivial
theorem Ends.read {a : ℕ} : Ends 1 (read a) := by
  intro m
  dsimp only
  split <;> trivial
theorem Ends.alloc {d : DF} : Ends 1 (alloc d) := fun _ => trivial
theorem Ends.update {a : ℕ} {f : DF → DF} : Ends 1 (update a f) := fun _ => trivial
theorem Ends.enter : Ends 1 enter := fun _ => trivial
theorem Ends.ignore : Ends 1 ignore := fun _ => trivial
theorem Ends.leave {a : ℕ} : Ends 1 (leave a) := fun _ => trivial

theorem Ends.applymap {a : ℕ} {f : Cell → Cell} : Ends 2 (applymap a f) := Ends.read.bind' fun _ => Ends.alloc
theorem Ends.empty {a : ℕ} : Ends 2 (empty a) := Ends.read.bind' fun _ => Ends.alloc
theorem Ends.concat {a b : ℕ} : Ends 3 (concat a b) := Ends.read.bind' fun _ => Ends.read.bind' fun _ => Ends.alloc
theorem Ends.setIndex {a : ℕ} {n : String} : Ends 2 (setIndex a n) := by
  refine Ends.read.bind' (b := 1) fun _ => ?_
  split
  · trivial
  · exact Ends.alloc
theorem Ends.select {a : ℕ} {n : List String} : Ends 2 (select a n) :=
  Ends.read.bind' (b := 1) fun _ => Ends.mono (a := 0 + 1) (Ends.lift.bind' fun _ => Ends.alloc) (by omega)
theorem Ends.lastRow {a : ℕ} : Ends 1 (lastRow a) := Ends.read.bind' fun _ => Ends.pure
theorem Ends.column {a : ℕ} {n : String} : Ends 1 (column a n) := by
  refine Ends.read.bind' (b := 0) fun _ => ?_
  split <;> trivial
theorem Ends.checkColumn {a : ℕ} {n msg : String} {q : Quantity} : Ends 2 (checkColumn a n q msg) :=
  Ends.column.bind' (b := 1) fun _ => Ends.mono (a := 0 + 1) (Ends.lift.bind' fun _ => Ends.column.bind' (b := 0)
    fun _ => Ends.mono (a := 0 + 0) (Ends.lift.bind' fun _ => Ends.lift) (by omega)) (by omega)
theorem Ends.checkClass {n : String} {g : String × ℕ} : Ends 1 (checkClass n g) :=
  Ends.read.bind' (b := 0) fun _ => Ends.lift
theorem Ends.quiet {a : ℕ} : Ends 4 (quietInterpolate a) :=
  Ends.enter.bind' (b := 3) fun _ => Ends.finally (a := 2) (Ends.ignore.bind' fun _ => Ends.update) Ends.leave
theorem Ends.prepare {a : ℕ} {n : String} {x : ℝ} : Ends 8 (prepare a n x) :=
  Ends.empty.bind' (b := 6) fun _ => Ends.update.bind' (b := 5) fun _ => Ends.concat.bind' fun _ => Ends.setIndex
theorem Ends.interpolateAt {a : ℕ} {n : String} {x : ℝ} : Ends 13 (interpolateAt a n x) :=
  Ends.prepare.bind' (b := 5) fun _ => Ends.quiet.bind' fun _ => Ends.lastRow

theorem Ends.lift_bind {α β : Type} {x : Py α} {g : α → Prog β} {b : ℕ} (hg : ∀ a, Ends b (g a)) :
    Ends b (Frames.lift x >>= g) := Ends.mono (Ends.lift.bind' hg) (by omega)

theorem Ends.series {a : ℕ} {n : String} : Ends 1 (series a n) := by
  refine Ends.read.bind' (b := 0) fun _ => ?_
  split <;> trivial
theorem Ends.materialCell {m : Tube.MatIn} {n : String} : Ends 4 (materialCell m n) := by
  refine Ends.column.bind' (b := 3) fun _ => Ends.bind' (a := 2) (b := 1)
    (Ends.read.bind' fun _ => Ends.alloc) fun _ => Ends.column.bind' (b := 0) fun _ => ?_
  split <;> trivial
theorem Ends.groupTable {m : Tube.MatIn} : Ends 5 (groupTable m) :=
  Ends.bind' (a := 1) (b := 4) (Ends.column.bind' (b := 0) fun _ => Ends.lift) fun _ =>
    Ends.materialCell.bind' (b := 0) fun _ => Ends.lift
theorem Ends.availableSchedules {size : String} : Ends 4 (availableSchedules size) := by
  refine Ends.read.bind' (b := 3) fun _ => ?_
  split
  · trivial
  · exact Ends.bind' (a := 2) (b := 1) (Ends.read.bind' fun _ => Ends.alloc) fun _ =>
      Ends.series.bind' (b := 0) fun _ => Ends.pure
theorem Ends.pipeEntry {n size : String} : Ends 1 (pipeEntry n size) := by
  refine Ends.series.bind' (b := 0) fun _ => ?_
  split <;> trivial
theorem Ends.threadValue {a : ℕ} {p s c : String} : Ends 1 (threadValue a p s c) := by
  refine Ends.series.bind' (b := 0) fun _ => ?_
  split <;> trivial
theorem Ends.stressAreas {reg : Registry} {s c : String} {b p l : QIn} : Ends 5 (stressAreas reg s c b p l) := by
  unfold Frames.stressAreas
  refine Ends.lift_bind fun _ => Ends.lift_bind fun _ => Ends.lift_bind fun _ => ?_
  refine Ends.threadValue.bind' (b := 4) fun _ => Ends.threadValue.bind' (b := 3) fun _ =>
    Ends.threadValue.bind' (b := 2) fun _ => Ends.threadValue.bind' (b := 1) fun _ => Ends.lift_bind fun _ =>
    Ends.threadValue.bind' (b := 0) fun _ => ?_
  exact Ends.lift_bind fun _ => Ends.lift_bind fun _ => Ends.lift_bind fun _ => Ends.lift_bind fun _ =>
    Ends.lift_bind fun _ => Ends.lift_bind fun _ => Ends.lift_bind fun _ => Ends.lift_bind fun _ => trivial

theorem ends_call (c : Call) : Ends 25 (c.prog u) := by
  cases c with
  | getClass reg x y m =>
    refine Ends.mono (Ends.bind (b := 0) (a := 24) ?_ fun _ => trivial) (by omega)
    unfold Frames.getClass
    refine Ends.lift_bind fun _ => Ends.lift_bind fun _ => Ends.lift_bind fun _ => Ends.lift_bind fun _ =>
      Ends.lift_bind fun _ => Ends.lift_bind fun _ => Ends.groupTable.bind' (b := 19) fun _ => ?_
    refine Ends.read.bind' (b := 18) fun _ => Ends.lift_bind fun _ => ?_
    refine Ends.column.bind' (b := 17) fun _ => Ends.lift_bind fun _ => Ends.lift_bind fun _ =>
      Ends.lift_bind fun _ => ?_
    exact Ends.checkColumn.bind' (b := 15) fun _ => Ends.applymap.bind' (b := 13) fun _ =>
      Ends.interpolateAt.bind' fun _ => Ends.lift
  | maxPressure cls x m =>
    refine Ends.mono (Ends.bind (b := 0) (a := 23) ?_ fun _ => trivial) (by omega)
    unfold Frames.getMaxPressure
    refine Ends.groupTable.bind' (b := 18) fun _ => Ends.checkClass.bind' (b := 17) fun _ => ?_
    exact Ends.lift_bind fun _ => Ends.checkColumn.bind' (b := 15) fun _ => Ends.applymap.bind' (b := 13) fun _ =>
      Ends.interpolateAt.bind' (b := 0) fun _ => Ends.lift_bind fun _ => trivial
  | maxTemperature cls x m =>
    refine Ends.bind (b := 0) (a := 25) ?_ fun _ => trivial
    unfold Frames.getMaxTemperature
    refine Ends.groupTable.bind' (b := 20) fun _ => Ends.checkClass.bind' (b := 19) fun _ => ?_
    refine Ends.lift_bind fun _ => ?_
    split
    · trivial
    · exact Ends.checkColumn.bind' (b := 17) fun _ => Ends.applymap.bind' (b := 15) fun _ =>
        Ends.select.bind' (b := 13) fun _ => Ends.interpolateAt.bind' (b := 0) fun _ => Ends.lift_bind fun _ => trivial
  | maxStress reg x m w =>
    refine Ends.mono (Ends.bind (b := 0) (a := 5) ?_ fun _ => trivial) (by omega)
    unfold Frames.maxStress
    refine Ends.lift_bind fun _ => Ends.bind' (a := 5) (b := 0) ?_ fun _ => ?_
    · exact Ends.select.bind' (b := 3) fun _ => Ends.update.bind' (b := 2) fun _ => Ends.column.bind' (b := 1) fun _ =>
        Ends.column.bind' fun _ => Ends.pure
    · split
      · exact Ends.lift_bind fun _ => trivial
      · trivial
  | schedules size => exact Ends.mono (Ends.bind (b := 0) Ends.availableSchedules fun _ => trivial) (by omega)
  | dimensions reg size sch =>
    refine Ends.mono (Ends.bind (b := 0) (a := 6) ?_ fun _ => trivial) (by omega)
    unfold Frames.dimensions
    refine Ends.availableSchedules.bind' (b := 2) fun _ => ?_
    split
    · trivial
    · refine Ends.pipeEntry.bind' (b := 1) fun _ => Ends.pipeEntry.bind' (b := 0) fun _ => ?_
      split <;> trivial
  | elasticModulus reg m =>
    refine Ends.mono (Ends.bind (b := 0) (a := 4) ?_ fun _ => trivial) (by omega)
    refine Ends.lift_bind fun _ => Ends.materialCell.bind' (b := 0) fun _ => ?_
    split <;> trivial
  | density reg m =>
    refine Ends.mono (Ends.bind (b := 0) (a := 4) ?_ fun _ => trivial) (by omega)
    refine Ends.lift_bind fun _ => Ends.materialCell.bind' (b := 0) fun _ => ?_
    split <;> trivial
  | poisson m =>
    refine Ends.mono (Ends.bind (b := 0) (a := 4) ?_ fun _ => trivial) (by omega)
    refine Ends.lift_bind fun _ => Ends.materialCell.bind' (b := 0) fun _ => ?_
    split <;> trivial
  | threadProperty reg p s c =>
    refine Ends.mono (Ends.bind (b := 0) (a := 3) ?_ fun _ => trivial) (by omega)
    refine Ends.lift_bind fun _ => Ends.read.bind' (b := 2) fun _ => ?_
    split
    · trivial
    · refine Ends.read.bind' (b := 1) fun _ => ?_
      split
      · trivial
      · refine Ends.series.bind' (b := 0) fun _ => ?_
        split <;> trivial
  | stressAreas reg s c b p l => exact Ends.mono (Ends.bind (b := 0) Ends.stressAreas fun _ => trivial) (by omega)
  | safetyFactors reg x a n s c b p l =>
    refine Ends.mono (Ends.bind (b := 0) (a := 5) ?_ fun _ => trivial) (by omega)
    unfold Frames.safetyFactors
    refine Ends.lift_bind fun _ => Ends.lift_bind fun _ => Ends.lift_bind fun _ => Ends.lift_bind fun _ =>
      Ends.lift_bind fun _ => Ends.lift_bind fun _ => Ends.lift_bind fun _ => Ends.lift_bind fun _ =>
      Ends.lift_bind fun _ => Ends.lift_bind fun _ => Ends.lift_bind fun _ => Ends.lift_bind fun _ =>
      Ends.lift_bind fun _ => Ends.stressAreas.bind' (b := 0) fun _ => ?_
    exact Ends.lift_bind fun _ => Ends.lift_bind fun _ => Ends.lift_bind fun _ => Ends.lift_bind fun _ =>
      Ends.lift_bind fun _ => Ends.lift_bind fun _ => trivial

theorem run_ends (schedule : List ℕ) {s : State} {i n : ℕ} {p : Prog Value} (hp : s.threads[i]? = some p)
    (h : Ends n p) : ∃ p', (s.run schedule).threads[i]? = some p' ∧ Ends (n - schedule.count i) p' := by
  induction schedule generalizing s n p with
  | nil => exact ⟨p, hp, by simpa using h⟩
  | cons j l ih =>
    have hlt : i < s.threads.length := (List.getElem?_eq_some_iff.mp hp).1
    by_cases hj : j = i
    · subst hj
      have hn : n - (j :: l).count j = n - 1 - l.count j := by
        rw [List.count_cons_self]; omega
      rw [hn]
      cases p with
      | done r =>
        refine ih (s := s.tick j) (p := .done r) ?_ ?_
        · simp [State.tick, hp]
        · cases hm : n - 1 <;> simp [Ends]
      | step f k =>
        cases n with
        | zero => exact absurd h (by simp [Ends])
        | succ n =>
          refine ih (s := s.tick j) (p := k s.mem) ?_ (h s.mem)
          unfold State.tick
          rw [hp]
          exact List.getElem?_set_self hlt
    · have hn : n - (j :: l).count i = n - l.count i := by
        rw [List.count_cons_of_ne hj]
      rw [hn]
      refine ih (s := s.tick j) (p := p) ?_ h
      unfold State.tick
      split
      · rw [List.getElem?_set_ne hj, hp]
      · exact hp

/-- C90: a call ends after at most 25 of its own operations (an operation being one access to the memory of the
process), however many other threads run and whatever they do in between. -/
theorem C90_finishes (m : Mem) (calls : List Call) (schedule : List ℕ) {i : ℕ} (hi : i < calls.length)
    (h : 25 ≤ schedule.count i) :
    ∃ r : Py Value, ((start u m calls).run schedule).threads[i]? = some (.done r) := by
  obtain ⟨p, hp, he⟩ := run_ends schedule (s := start u m calls) (i := i) (p := (calls[i]).prog u)
    (by simp [start, hi]) (ends_call _)
  have : 25 - schedule.count i = 0 := by omega
  rw [this] at he
  cases p with
  | done r => exact ⟨r, hp⟩
  | step f k => exact absurd he (by simp [Ends])

/-! ### The warning filters -/

/-- Code put together from memory accesses and interpolations with warnings switched off. -/
inductive Shaped : {α : Type} → Prog α → Prop
  | done {α : Type} (r : Py α) : Shaped (Prog.done r)
  | read (a : ℕ) : Shaped (Frames.read a)
  | alloc (d : DF) : Shaped (Frames.alloc d)
  | update (a : ℕ) (f : DF → DF) : Shaped (Frames.update a f)
  | quiet (a : ℕ) : Shaped (quietInterpolate a)
  | bind {α β : Type} {p : Prog α} {g : α → Prog β} : Shaped p → (∀ a, Shaped (g a)) → Shaped (p.bind g)

theorem Shaped.bind' {α β : Type} {p : Prog α} {g : α → Prog β} (h : Shaped p) (hg : ∀ a, Shaped (g a)) :
    Shaped (p >>= g) := Shaped.bind h hg
theorem Shaped.lift {α : Type} (x : Py α) : Shaped (Frames.lift x) := Shaped.done x
theorem Shaped.pure {α : Type} (x : α) : Shaped (Pure.pure x : Prog α) := Shaped.done _
theorem Shaped.lift_bind {α β : Type} {x : Py α} {g : α → Prog β} (hg : ∀ a, Shaped (g a)) :
    Shaped (Frames.lift x >>= g) := (Shaped.lift x).bind' hg
theorem Shaped.applymap (a : ℕ) (f : Cell → Cell) : Shaped (applymap a f) :=
  (Shaped.read _).bind' fun _ => Shaped.alloc _
theorem Shaped.setIndex (a : ℕ) (n : String) : Shaped (setIndex a n) := by
  refine (Shaped.read _).bind' fun _ => ?_
  split
  · exact Shaped.lift _
  · exact Shaped.alloc _
theorem Shaped.select (a : ℕ) (n : List String) : Shaped (select a n) :=
  (Shaped.read _).bind' fun _ => Shaped.lift_bind fun _ => Shaped.alloc _
theorem Shaped.column (a : ℕ) (n : String) : Shaped (column a n) := by
  refine (Shaped.read _).bind' fun _ => ?_
  split
  · exact Shaped.lift _
  · exact Shaped.pure _
theorem Shaped.checkColumn (a : ℕ) (n msg : String) (q : Quantity) : Shaped (checkColumn a n q msg) :=
  (Shaped.column _ _).bind' fun _ => Shaped.lift_bind fun _ => (Shaped.column _ _).bind' fun _ =>
    Shaped.lift_bind fun _ => Shaped.lift _
theorem Shaped.checkClass (n : String) (g : String × ℕ) : Shaped (checkClass n g) :=
  (Shaped.read _).bind' fun _ => Shaped.lift _
theorem Shaped.prepare (a : ℕ) (n : String) (x : ℝ) : Shaped (prepare a n x) :=
  Shaped.bind' ((Shaped.read _).bind' fun _ => Shaped.alloc _) fun _ => (Shaped.update _ _).bind' fun _ =>
    Shaped.bind' ((Shaped.read _).bind' fun _ => (Shaped.read _).bind' fun _ => Shaped.alloc _) fun _ =>
      Shaped.setIndex _ _
theorem Shaped.lastRow (a : ℕ) : Shaped (lastRow a) := (Shaped.read _).bind' fun _ => Shaped.pure _
theorem Shaped.interpolateAt (a : ℕ) (n : String) (x : ℝ) : Shaped (interpolateAt a n x) :=
  (Shaped.prepare _ _ _).bind' fun _ => (Shaped.quiet _).bind' fun _ => Shaped.lastRow _

theorem Shaped.series (a : ℕ) (n : String) : Shaped (Frames.series a n) := by
  refine (Shaped.read _).bind' fun _ => ?_
  split
  · exact Shaped.lift _
  · exact Shaped.pure _
theorem Shaped.materialCell (m : Tube.MatIn) (n : String) : Shaped (Frames.materialCell m n) := by
  refine (Shaped.column _ _).bind' fun _ => Shaped.bind' ((Shaped.read _).bind' fun _ => Shaped.alloc _) fun _ =>
    (Shaped.column _ _).bind' fun _ => ?_
  split
  · exact Shaped.lift _
  · exact Shaped.pure _
theorem Shaped.groupTable (m : Tube.MatIn) : Shaped (Frames.groupTable m) :=
  Shaped.bind' ((Shaped.column _ _).bind' fun _ => Shaped.lift _) fun _ => (Shaped.materialCell _ _).bind' fun _ => Shaped.lift _
theorem Shaped.availableSchedules (size : String) : Shaped (availableSchedules size) := by
  refine (Shaped.read _).bind' fun _ => ?_
  split
  · exact Shaped.lift _
  · exact Shaped.bind' ((Shaped.read _).bind' fun _ => Shaped.alloc _) fun _ =>
      (Shaped.series _ _).bind' fun _ => Shaped.pure _
theorem Shaped.pipeEntry (n size : String) : Shaped (pipeEntry n size) := by
  refine (Shaped.series _ _).bind' fun _ => ?_
  split
  · exact Shaped.lift _
  · exact Shaped.pure _
theorem Shaped.threadValue (a : ℕ) (p s c : String) : Shaped (threadValue a p s c) := by
  refine (Shaped.series _ _).bind' fun _ => ?_
  split
  · exact Shaped.lift _
  · exact Shaped.pure _
  · exact Shaped.lift _
theorem Shaped.stressAreas (reg : Registry) (s c : String) (b p l : QIn) : Shaped (stressAreas reg s c b p l) := by
  unfold Frames.stressAreas
  refine Shaped.lift_bind fun _ => Shaped.lift_bind fun _ => Shaped.lift_bind fun _ => ?_
  refine (Shaped.threadValue _ _ _ _).bind' fun _ => (Shaped.threadValue _ _ _ _).bind' fun _ =>
    (Shaped.threadValue _ _ _ _).bind' fun _ => (Shaped.threadValue _ _ _ _).bind' fun _ => Shaped.lift_bind fun _ =>
    (Shaped.threadValue _ _ _ _).bind' fun _ => ?_
  exact Shaped.lift_bind fun _ => Shaped.lift_bind fun _ => Shaped.lift_bind fun _ => Shaped.lift_bind fun _ =>
    Shaped.lift_bind fun _ => Shaped.lift_bind fun _ => Shaped.lift_bind fun _ => Shaped.lift_bind fun _ =>
    Shaped.pure _

theorem shaped_call (c : Call) : Shaped (c.prog u) := by
  cases c with
  | getClass reg x y m =>
    refine Shaped.bind ?_ fun _ => Shaped.done _
    unfold Frames.getClass
    exact Shaped.lift_bind fun _ => Shaped.lift_bind fun _ => Shaped.lift_bind fun _ => Shaped.lift_bind fun _ =>
      Shaped.lift_bind fun _ => Shaped.lift_bind fun _ => (Shaped.groupTable _).bind' fun _ =>
      (Shaped.read _).bind' fun _ => Shaped.lift_bind fun _ => (Shaped.column _ _).bind' fun _ =>
      Shaped.lift_bind fun _ => Shaped.lift_bind fun _ => Shaped.lift_bind fun _ =>
      (Shaped.checkColumn _ _ _ _).bind' fun _ => (Shaped.applymap _ _).bind' fun _ =>
      (Shaped.interpolateAt _ _ _).bind' fun _ => Shaped.lift _
  | maxPressure cls x m =>
    refine Shaped.bind ?_ fun _ => Shaped.done _
    unfold Frames.getMaxPressure
    exact (Shaped.groupTable _).bind' fun _ => (Shaped.checkClass _ _).bind' fun _ => Shaped.lift_bind fun _ =>
      (Shaped.checkColumn _ _ _ _).bind' fun _ => (Shaped.applymap _ _).bind' fun _ =>
      (Shaped.interpolateAt _ _ _).bind' fun _ => Shaped.lift_bind fun _ => Shaped.pure _
  | maxTemperature cls x m =>
    refine Shaped.bind ?_ fun _ => Shaped.done _
    unfold Frames.getMaxTemperature
    refine (Shaped.groupTable _).bind' fun _ => (Shaped.checkClass _ _).bind' fun _ => Shaped.lift_bind fun _ => ?_
    split
    · exact Shaped.lift _
    · exact (Shaped.checkColumn _ _ _ _).bind' fun _ => (Shaped.applymap _ _).bind' fun _ =>
        (Shaped.select _ _).bind' fun _ => (Shaped.interpolateAt _ _ _).bind' fun _ => Shaped.lift_bind fun _ =>
        Shaped.pure _
  | maxStress reg x m w =>
    refine Shaped.bind ?_ fun _ => Shaped.done _
    unfold Frames.maxStress
    refine Shaped.lift_bind fun _ => Shaped.bind' ?_ fun _ => ?_
    · exact (Shaped.select _ _).bind' fun _ => (Shaped.update _ _).bind' fun _ => (Shaped.column _ _).bind' fun _ =>
        (Shaped.column _ _).bind' fun _ => Shaped.pure _
    · split
      · exact Shaped.lift_bind fun _ => Shaped.pure _
      · exact Shaped.lift _
  | schedules size => exact (Shaped.availableSchedules _).bind fun _ => Shaped.done _
  | dimensions reg size sch =>
    refine Shaped.bind ?_ fun _ => Shaped.done _
    unfold Frames.dimensions
    refine (Shaped.availableSchedules _).bind' fun _ => ?_
    split
    · exact Shaped.lift _
    · refine (Shaped.pipeEntry _ _).bind' fun _ => (Shaped.pipeEntry _ _).bind' fun _ => ?_
      split
      · exact Shaped.pure _
      · exact Shaped.lift _
  | elasticModulus reg m =>
    refine Shaped.bind ?_ fun _ => Shaped.done _
    refine Shaped.lift_bind fun _ => (Shaped.materialCell _ _).bind' fun _ => ?_
    split
    · exact Shaped.lift _
    · exact Shaped.lift _
  | density reg m =>
    refine Shaped.bind ?_ fun _ => Shaped.done _
    refine Shaped.lift_bind fun _ => (Shaped.materialCell _ _).bind' fun _ => ?_
    split
    · exact Shaped.lift _
    · exact Shaped.lift _
  | poisson m =>
    refine Shaped.bind ?_ fun _ => Shaped.done _
    refine Shaped.lift_bind fun _ => (Shaped.materialCell _ _).bind' fun _ => ?_
    split
    · exact Shaped.pure _
    · exact Shaped.lift _
  | threadProperty reg p s c =>
    refine Shaped.bind ?_ fun _ => Shaped.done _
    refine Shaped.lift_bind fun _ => (Shaped.read _).bind' fun _ => ?_
    split
    · exact Shaped.lift _
    · refine (Shaped.read _).bind' fun _ => ?_
      split
      · exact Shaped.lift _
      · refine (Shaped.series _ _).bind' fun _ => ?_
        split
        · exact Shaped.lift _
        · exact Shaped.pure _
  | stressAreas reg s c b p l => exact (Shaped.stressAreas _ _ _ _ _ _).bind fun _ => Shaped.done _
  | safetyFactors reg x a n s c b p l =>
    refine Shaped.bind ?_ fun _ => Shaped.done _
    unfold Frames.safetyFactors
    refine Shaped.lift_bind fun _ => Shaped.lift_bind fun _ => Shaped.lift_bind fun _ => Shaped.lift_bind fun _ =>
      Shaped.lift_bind fun _ => Shaped.lift_bind fun _ => Shaped.lift_bind fun _ => Shaped.lift_bind fun _ =>
      Shaped.lift_bind fun _ => Shaped.lift_bind fun _ => Shaped.lift_bind fun _ => Shaped.lift_bind fun _ =>
      Shaped.lift_bind fun _ => (Shaped.stressAreas _ _ _ _ _ _).bind' fun _ => ?_
    exact Shaped.lift_bind fun _ => Shaped.lift_bind fun _ => Shaped.lift_bind fun _ => Shaped.lift_bind fun _ =>
      Shaped.lift_bind fun _ => Shaped.lift_bind fun _ => Shaped.pure _

theorem exec_bind {α β : Type} (p : Prog α) (g : α → Prog β) (m : Mem) :
    (p.bind g).exec m = match p.exec m with
      | (.ok a, m') => (g a).exec m'
      | (.error e, m') => (.error e, m') := by
  induction p generalizing m with
  | done r => cases r <;> rfl
  | step f k ih => exact ih m (f m)

/-- The four operations of an interpolation with warnings switched off. -/
theorem quiet_eq (a : ℕ) : quietInterpolate a =
    .step (fun m => { m with filters := m.filters ++ [(m.filters[m.current]?).getD []], current := m.filters.length })
      fun m0 => .step (fun m => { m with filters := m.filters.modify m.current fun l => "ignore" :: l.erase "ignore" })
      fun _ => .step (fun m => { m with frames := m.frames.modify a fun d =>
        ⟨d.index, d.cols.map fun c => (c.1, fillColumn d.index c.2)⟩ })
      fun _ => .step (fun m => { m with current := m0.current }) fun _ => .done (.ok ()) := rfl

theorem shaped_exec {α : Type} {p : Prog α} (h : Shaped p) (m : Mem) :
    m.filters <+: (p.exec m).2.filters ∧ (p.exec m).2.current = m.current := by
  induction h generalizing m with
  | done r => exact ⟨List.prefix_rfl, rfl⟩
  | read a =>
    unfold Frames.read
    simp only [Prog.exec]
    split <;> exact ⟨List.prefix_rfl, rfl⟩
  | alloc d => exact ⟨List.prefix_rfl, rfl⟩
  | update a f => exact ⟨List.prefix_rfl, rfl⟩
  | quiet a =>
    rw [quiet_eq]
    refine ⟨?_, rfl⟩
    simp only [Prog.exec]
    refine List.prefix_iff_eq_take.mpr ?_
    apply List.ext_getElem?
    intro i
    rw [List.getElem?_take]
    split
    · rename_i hi
      rw [modify_ne (by omega), List.getElem?_append_left hi]
    · rename_i hi
      rw [List.getElem?_eq_none (by omega)]
  | bind _ _ ih1 ih2 =>
    rename_i p g _ _
    rw [exec_bind]
    have h1 := ih1 m
    cases hp : p.exec m with
    | mk r m' =>
      rw [hp] at h1
      cases r with
      | ok a =>
        have h2 := ih2 a m'
        exact ⟨h1.1.trans h2.1, h2.2.trans h1.2⟩
      | error e => exact h1

/-- Calls made one after the other, in one thread: what they returned, and the memory afterwards. -/
noncomputable def history (u : Registry) : List Call → Mem → List (Py Value) × Mem
  | [], m => ([], m)
  | c :: l, m =>
    let r := (c.prog u).exec m
    let s := history u l r.2
    (r.1 :: s.1, s.2)

theorem wp_exec {α : Type} {p : Prog α} {Q : Py α → Own → Prop} {own : Own} {m : Mem} (h : wp T p Q own)
    (hm : Agree T own m) : ∃ own', Q (p.exec m).1 own' ∧ Agree T own' (p.exec m).2 := by
  induction p generalizing own m with
  | done r => exact ⟨own, h, hm⟩
  | step f k ih =>
    obtain ⟨o, h1, h2, h3⟩ := h m hm
    exact ih m h3 h1

/-- C91 (and C90): calls made one after the other return what each returns alone; afterwards the module's tables are as
they were, and the warning filters in force are the same list, with the same content.  This holds also for calls that
raise.  Missing from the property: the same for calls made from several threads, see `C91_threads_violated`. -/
theorem C91_one_thread_partial {m : Mem} (h : Imported u m) (calls : List Call) :
    (history u calls m).1 = calls.map (Call.value u) ∧
    (∀ a < m.frames.length, (history u calls m).2.frames[a]? = m.frames[a]?) ∧
    (history u calls m).2.current = m.current ∧
    (history u calls m).2.filters[m.current]? = m.filters[m.current]? := by
  have key : ∀ (calls : List Call) (m : Mem), Frames.tables u Flange.lims <+: m.frames →
      (history u calls m).1 = calls.map (Call.value u) ∧ m.frames <+: (history u calls m).2.frames ∧
        (history u calls m).2.current = m.current ∧ m.filters <+: (history u calls m).2.filters := by
    intro calls
    induction calls with
    | nil => exact fun m _ => ⟨rfl, List.prefix_rfl, rfl, List.prefix_rfl⟩
    | cons c l ih =>
      intro m hm
      obtain ⟨o, h1, h2⟩ := wp_exec (own := fun _ => none) (m := m) (wp_call (T := m.frames) hm c)
        ⟨List.prefix_rfl, fun a d hd => by cases hd⟩
      obtain ⟨s1, s2⟩ := shaped_exec (shaped_call (u := u) c) m
      obtain ⟨g1, g2, g3, g4⟩ := ih ((c.prog u).exec m).2 (hm.trans h2.tables)
      refine ⟨?_, h2.tables.trans g2, g3.trans s2, s1.trans g4⟩
      simp only [history, List.map_cons, g1]
      rw [h1]
  obtain ⟨g1, ⟨l, hl⟩, g3, ⟨l', hl'⟩⟩ := key calls m h.prefix
  refine ⟨g1, fun a ha => ?_, g3, ?_⟩
  · rw [← hl, List.getElem?_append_left ha]
  · rw [← hl', List.getElem?_append_left h.filters]

/-- Whatever happens in between: if all filter lists satisfy `S` and there were `n` of them at some time in the past,
the code's operations keep it so. -/
def Tame (S : List String → Prop) {α : Type} : Prog α → ℕ → Prop
  | .done _, _ => True
  | .step f k, n => ∀ m, n ≤ m.filters.length → m.current < m.filters.length → (∀ l ∈ m.filters, S l) →
      (f m).current < (f m).filters.length ∧ m.filters.length ≤ (f m).filters.length ∧ (∀ l ∈ (f m).filters, S l) ∧
        Tame S (k m) m.filters.length

theorem Tame.bind {S : List String → Prop} {α β : Type} {p : Prog α} {g : α → Prog β} {n : ℕ} (h : Tame S p n)
    (hg : ∀ a n, Tame S (g a) n) : Tame S (p.bind g) n := by
  induction p generalizing n with
  | done r =>
    cases r with
    | ok a => exact hg a n
    | error e => trivial
  | step f k ih =>
    intro m h1 h2 h3
    obtain ⟨g1, g2, g3, g4⟩ := h m h1 h2 h3
    exact ⟨g1, g2, g3, ih m g4⟩

theorem shaped_tame {S : List String → Prop} (hS : ∀ l, S l → S ("ignore" :: l.erase "ignore")) {α : Type}
    {p : Prog α} (h : Shaped p) (n : ℕ) : Tame S p n := by
  induction h generalizing n with
  | done r => trivial
  | read a =>
    intro m h1 h2 h3
    refine ⟨h2, le_rfl, h3, ?_⟩
    dsimp only
    split <;> trivial
  | alloc d => exact fun m h1 h2 h3 => ⟨h2, le_rfl, h3, trivial⟩
  | update a f => exact fun m h1 h2 h3 => ⟨h2, le_rfl, h3, trivial⟩
  | quiet a =>
    rw [quiet_eq]
    intro m h1 h2 h3
    refine ⟨by simp, by simp, ?_, ?_⟩
    · intro l hl
      rcases List.mem_append.mp hl with hl | hl
      · exact h3 l hl
      · rw [List.mem_singleton.mp hl, List.getElem?_eq_getElem h2]
        exact h3 _ (List.getElem_mem _)
    · intro m1 g1 g2 g3
      refine ⟨by simpa using g2, by simp, ?_, ?_⟩
      · intro l hl
        obtain ⟨i, hi⟩ := List.getElem?_of_mem hl
        rw [List.getElem?_modify] at hi
        cases hx : m1.filters[i]? with
        | none => rw [hx] at hi; cases hi
        | some y =>
          rw [hx] at hi
          simp only [Option.map_eq_map, Option.map_some, Option.some.injEq] at hi
          subst hi
          split
          · exact hS _ (g3 y (List.mem_of_getElem? hx))
          · exact g3 y (List.mem_of_getElem? hx)
      · intro m2 k1 k2 k3
        refine ⟨k2, le_rfl, k3, ?_⟩
        intro m3 j1 j2 j3
        refine ⟨?_, le_rfl, j3, trivial⟩
        simp only
        omega
  | bind _ _ ih1 ih2 => exact (ih1 n).bind fun a n => ih2 a n

theorem tame_run {S : List String → Prop} (schedule : List ℕ) {s : State} (h1 : s.mem.current < s.mem.filters.length)
    (h2 : ∀ l ∈ s.mem.filters, S l)
    (h3 : ∀ (i : ℕ) (p : Prog Value), s.threads[i]? = some p → ∃ n ≤ s.mem.filters.length, Tame S p n) :
    (s.run schedule).mem.current < (s.run schedule).mem.filters.length ∧
      ∀ l ∈ (s.run schedule).mem.filters, S l := by
  induction schedule generalizing s with
  | nil => exact ⟨h1, h2⟩
  | cons i l ih =>
    have key : (s.tick i).mem.current < (s.tick i).mem.filters.length ∧ (∀ l ∈ (s.tick i).mem.filters, S l) ∧
        ∀ (j : ℕ) (p : Prog Value), (s.tick i).threads[j]? = some p → ∃ n ≤ (s.tick i).mem.filters.length, Tame S p n := by
      unfold State.tick
      split
      · rename_i f k hp
        obtain ⟨n, hn, ht⟩ := h3 i _ hp
        obtain ⟨g1, g2, g3, g4⟩ := ht s.mem hn h1 h2
        refine ⟨g1, g3, fun j p hj => ?_⟩
        by_cases hji : j = i
        · subst hji
          rw [List.getElem?_set_self (List.getElem?_eq_some_iff.mp hp).1] at hj
          cases hj
          exact ⟨_, g2, g4⟩
        · rw [List.getElem?_set_ne (Ne.symm hji)] at hj
          obtain ⟨n', hn', ht'⟩ := h3 j p hj
          exact ⟨n', hn'.trans g2, ht'⟩
      · exact ⟨h1, h2, h3⟩
    exact ih key.1 key.2.1 key.2.2

/-- C91: with any number of threads and any schedule, the filters in force at any moment are the original ones, or these
with "ignore" in front: the caller's own filters are never lost, but see `C91_threads_violated`. -/
theorem C91_any_schedule_partial {m : Mem} {F : List String} (hf : m.filters = [F]) (hc : m.current = 0)
    (calls : List Call) (schedule : List ℕ) :
    ((start u m calls).run schedule).mem.filters[((start u m calls).run schedule).mem.current]? = some F ∨
    ((start u m calls).run schedule).mem.filters[((start u m calls).run schedule).mem.current]? =
      some ("ignore" :: F.erase "ignore") := by
  have hS : ∀ l, (l = F ∨ l = "ignore" :: F.erase "ignore") →
      ("ignore" :: l.erase "ignore" = F ∨ "ignore" :: l.erase "ignore" = "ignore" :: F.erase "ignore") := by
    rintro l (rfl | rfl)
    · exact Or.inr rfl
    · right; simp
  obtain ⟨h1, h2⟩ := tame_run (S := fun l => l = F ∨ l = "ignore" :: F.erase "ignore") schedule
    (s := start u m calls) (by simp [start, hf, hc]) (by simp [start, hf]) (by
      intro i p hp
      simp only [start, List.getElem?_map, Option.map_eq_some_iff] at hp
      obtain ⟨c, -, rfl⟩ := hp
      exact ⟨0, by omega, shaped_tame hS (shaped_call c) 0⟩)
  rw [List.getElem?_eq_getElem h1]
  rcases h2 _ (List.getElem_mem h1) with h | h
  · exact Or.inl (by rw [h])
  · exact Or.inr (by rw [h])

/-! ### Two threads: the filters are not restored -/

/-- Code that leaves the warning filters alone. -/
def Calm {α : Type} : Prog α → Prop
  | .done _ => True
  | .step f k => (∀ m, (f m).filters = m.filters ∧ (f m).current = m.current) ∧ ∀ m, Calm (k m)

/-- Code that either raises or performs one interpolation with warnings switched off, and leaves the filters alone
before and after it. -/
inductive Once {α : Type} : Prog α → Prop
  | fail (e : PyErr) : Once (.done (.error e))
  | step {f : Mem → Mem} {k : Mem → Prog α} (h : ∀ m, (f m).filters = m.filters ∧ (f m).current = m.current)
      (hk : ∀ m, Once (k m)) : Once (.step f k)
  | quiet (a : ℕ) {g : Unit → Prog α} (hg : ∀ x, Calm (g x)) : Once ((quietInterpolate a).bind g)

theorem Calm.bind {α β : Type} {p : Prog α} {g : α → Prog β} (h : Calm p) (hg : ∀ a, Calm (g a)) :
    Calm (p.bind g) := by
  induction p with
  | done r => cases r with
    | ok a => exact hg a
    | error e => trivial
  | step f k ih => exact ⟨h.1, fun m => ih m (h.2 m)⟩

theorem Calm.bind' {α β : Type} {p : Prog α} {g : α → Prog β} (h : Calm p) (hg : ∀ a, Calm (g a)) :
    Calm (p >>= g) := Calm.bind h hg

theorem Once.pre {α β : Type} {p : Prog α} {g : α → Prog β} (h : Calm p) (hg : ∀ a, Once (g a)) :
    Once (p.bind g) := by
  induction p with
  | done r => cases r with
    | ok a => exact hg a
    | error e => exact Once.fail e
  | step f k ih => exact Once.step h.1 fun m => ih m (h.2 m)

theorem Once.pre' {α β : Type} {p : Prog α} {g : α → Prog β} (h : Calm p) (hg : ∀ a, Once (g a)) :
    Once (p >>= g) := Once.pre h hg

theorem Once.post {α β : Type} {p : Prog α} {g : α → Prog β} (h : Once p) (hg : ∀ a, Calm (g a)) :
    Once (p.bind g) := by
  induction h with
  | fail e => exact Once.fail e
  | step h _ ih => exact Once.step h ih
  | quiet a hg' =>
    rename_i g'
    have : ((quietInterpolate a).bind g').bind g = (quietInterpolate a).bind fun x => (g' x).bind g := rfl
    rw [this]
    exact Once.quiet a fun x => (hg' x).bind hg

theorem Once.post' {α β : Type} {p : Prog α} {g : α → Prog β} (h : Once p) (hg : ∀ a, Calm (g a)) :
    Once (p >>= g) := Once.post h hg

theorem Calm.lift {α : Type} (x : Py α) : Calm (Frames.lift x) := trivial
theorem Calm.pure {α : Type} (x : α) : Calm (Pure.pure x : Prog α) := trivial
theorem Calm.read (a : ℕ) : Calm (Frames.read a) := by
  refine ⟨fun _ => ⟨rfl, rfl⟩, fun m => ?_⟩
  dsimp only
  split <;> trivial
theorem Calm.alloc (d : DF) : Calm (Frames.alloc d) := ⟨fun _ => ⟨rfl, rfl⟩, fun _ => trivial⟩
theorem Calm.update (a : ℕ) (f : DF → DF) : Calm (Frames.update a f) := ⟨fun _ => ⟨rfl, rfl⟩, fun _ => trivial⟩
theorem Calm.applymap (a : ℕ) (f : Cell → Cell) : Calm (Frames.applymap a f) :=
  (Calm.read _).bind' fun _ => Calm.alloc _
theorem Calm.setIndex (a : ℕ) (n : String) : Calm (Frames.setIndex a n) := by
  refine (Calm.read _).bind' fun _ => ?_
  split
  · exact Calm.lift _
  · exact Calm.alloc _
theorem Calm.select (a : ℕ) (n : List String) : Calm (Frames.select a n) :=
  (Calm.read _).bind' fun _ => (Calm.lift _).bind' fun _ => Calm.alloc _
theorem Calm.column (a : ℕ) (n : String) : Calm (Frames.column a n) := by
  refine (Calm.read _).bind' fun _ => ?_
  split
  · exact Calm.lift _
  · exact Calm.pure _
theorem Calm.checkColumn (a : ℕ) (n msg : String) (q : Quantity) : Calm (Frames.checkColumn a n q msg) :=
  (Calm.column _ _).bind' fun _ => (Calm.lift _).bind' fun _ => (Calm.column _ _).bind' fun _ =>
    (Calm.lift _).bind' fun _ => Calm.lift _
theorem Calm.checkClass (n : String) (g : String × ℕ) : Calm (Frames.checkClass n g) :=
  (Calm.read _).bind' fun _ => Calm.lift _
theorem Calm.prepare (a : ℕ) (n : String) (x : ℝ) : Calm (Frames.prepare a n x) :=
  Calm.bind' ((Calm.read _).bind' fun _ => Calm.alloc _) fun _ => (Calm.update _ _).bind' fun _ =>
    Calm.bind' ((Calm.read _).bind' fun _ => (Calm.read _).bind' fun _ => Calm.alloc _) fun _ =>
      Calm.setIndex _ _
theorem Calm.series (a : ℕ) (n : String) : Calm (Frames.series a n) := by
  refine (Calm.read _).bind' fun _ => ?_
  split
  · exact Calm.lift _
  · exact Calm.pure _
theorem Calm.materialCell (m : Tube.MatIn) (n : String) : Calm (Frames.materialCell m n) := by
  refine (Calm.column _ _).bind' fun _ => Calm.bind' ((Calm.read _).bind' fun _ => Calm.alloc _) fun _ =>
    (Calm.column _ _).bind' fun _ => ?_
  split
  · exact Calm.lift _
  · exact Calm.pure _
theorem Calm.groupTable (m : Tube.MatIn) : Calm (Frames.groupTable m) :=
  Calm.bind' ((Calm.column _ _).bind' fun _ => Calm.lift _) fun _ => (Calm.materialCell _ _).bind' fun _ => Calm.lift _
theorem Once.interpolateAt (a : ℕ) (n : String) (x : ℝ) : Once (Frames.interpolateAt a n x) :=
  Once.pre' (Calm.prepare _ _ _) fun _ => Once.quiet _ fun _ => (Calm.read _).bind' fun _ => Calm.pure _

/-- The three lookups of flange ratings. -/
def Call.isFlange : Call → Prop
  | .getClass .. => True
  | .maxPressure .. => True
  | .maxTemperature .. => True
  | _ => False

theorem once_call {c : Call} (h : c.isFlange) : Once (c.prog u) := by
  cases c with
  | getClass reg x y m =>
    refine Once.post ?_ fun _ => trivial
    unfold Frames.getClass
    exact Once.pre' (Calm.lift _) fun _ => Once.pre' (Calm.lift _) fun _ => Once.pre' (Calm.lift _) fun _ =>
      Once.pre' (Calm.lift _) fun _ => Once.pre' (Calm.lift _) fun _ => Once.pre' (Calm.lift _) fun _ =>
      Once.pre' (Calm.groupTable _) fun _ => Once.pre' (Calm.read _) fun _ => Once.pre' (Calm.lift _) fun _ =>
      Once.pre' (Calm.column _ _) fun _ => Once.pre' (Calm.lift _) fun _ => Once.pre' (Calm.lift _) fun _ =>
      Once.pre' (Calm.lift _) fun _ => Once.pre' (Calm.checkColumn _ _ _ _) fun _ =>
      Once.pre' (Calm.applymap _ _) fun _ => Once.post' (Once.interpolateAt _ _ _) fun _ => Calm.lift _
  | maxPressure cls x m =>
    refine Once.post ?_ fun _ => trivial
    unfold Frames.getMaxPressure
    exact Once.pre' (Calm.groupTable _) fun _ => Once.pre' (Calm.checkClass _ _) fun _ => Once.pre' (Calm.lift _) fun _ =>
      Once.pre' (Calm.checkColumn _ _ _ _) fun _ => Once.pre' (Calm.applymap _ _) fun _ =>
      Once.post' (Once.interpolateAt _ _ _) fun _ => (Calm.lift _).bind' fun _ => Calm.pure _
  | maxTemperature cls x m =>
    refine Once.post ?_ fun _ => trivial
    unfold Frames.getMaxTemperature
    refine Once.pre' (Calm.groupTable _) fun _ => Once.pre' (Calm.checkClass _ _) fun _ => Once.pre' (Calm.lift _) fun _ => ?_
    split
    · exact Once.fail _
    · exact Once.pre' (Calm.checkColumn _ _ _ _) fun _ => Once.pre' (Calm.applymap _ _) fun _ =>
        Once.pre' (Calm.select _ _) fun _ => Once.post' (Once.interpolateAt _ _ _) fun _ =>
        (Calm.lift _).bind' fun _ => Calm.pure _
  | maxStress | schedules | dimensions | elasticModulus | density | poisson | threadProperty | stressAreas
  | safetyFactors => exact absurd h (by simp [Call.isFlange])

theorem State.run_append (s : State) (a b : List ℕ) : s.run (a ++ b) = (s.run a).run b := List.foldl_append ..

theorem tick_step {s : State} {i : ℕ} {f : Mem → Mem} {k : Mem → Prog Value} (h : s.threads[i]? = some (.step f k)) :
    s.tick i = ⟨f s.mem, s.threads.set i (k s.mem)⟩ := by
  unfold State.tick
  rw [h]

/-- A thread that leaves the filters alone runs to its end. -/
theorem run_calm {p : Prog Value} (hp : Calm p) {s : State} {i : ℕ} (h : s.threads[i]? = some p) :
    ∃ (l : List ℕ) (r : Py Value), (s.run l).mem.filters = s.mem.filters ∧ (s.run l).mem.current = s.mem.current ∧
      (s.run l).threads = s.threads.set i (.done r) := by
  induction p generalizing s with
  | done r => exact ⟨[], r, rfl, rfl, (List.ext_getElem? fun j => by
      by_cases hj : i = j
      · subst hj
        rw [List.getElem?_set_self (List.getElem?_eq_some_iff.mp h).1]; exact h
      · rw [List.getElem?_set_ne hj]; rfl)⟩
  | step f k ih =>
    have ht := tick_step h
    obtain ⟨l, r, h1, h2, h3⟩ := ih s.mem (hp.2 s.mem) (s := s.tick i)
      (by rw [ht]; exact List.getElem?_set_self (List.getElem?_eq_some_iff.mp h).1)
    refine ⟨i :: l, r, ?_, ?_, ?_⟩
    · exact h1.trans (by rw [ht]; exact (hp.1 s.mem).1)
    · exact h2.trans (by rw [ht]; exact (hp.1 s.mem).2)
    · refine h3.trans ?_
      rw [ht]
      simp

/-- A thread runs until it has raised or is about to switch warnings off. -/
theorem run_once {p : Prog Value} (hp : Once p) {s : State} {i : ℕ} (h : s.threads[i]? = some p) :
    ∃ (l : List ℕ) (q : Prog Value), (s.run l).mem.filters = s.mem.filters ∧
      (s.run l).mem.current = s.mem.current ∧ (s.run l).threads = s.threads.set i q ∧
      ((∃ e, q = .done (.error e)) ∨ ∃ a g, (∀ x, Calm (g x)) ∧ q = (quietInterpolate a).bind g) := by
  have hset : ∀ p, s.threads[i]? = some p → s.threads.set i p = s.threads := by
    intro p h
    refine List.ext_getElem? fun j => ?_
    by_cases hj : i = j
    · subst hj
      rw [List.getElem?_set_self (List.getElem?_eq_some_iff.mp h).1]; exact h.symm
    · rw [List.getElem?_set_ne hj]
  induction hp generalizing s with
  | fail e => exact ⟨[], _, rfl, rfl, (hset _ h).symm, Or.inl ⟨e, rfl⟩⟩
  | quiet a hg => exact ⟨[], _, rfl, rfl, (hset _ h).symm, Or.inr ⟨a, _, hg, rfl⟩⟩
  | step hf _ ih =>
    rename_i f k _
    have ht := tick_step h
    have h' : (s.tick i).threads[i]? = some (k s.mem) := by
      rw [ht]; exact List.getElem?_set_self (List.getElem?_eq_some_iff.mp h).1
    obtain ⟨l, q, h1, h2, h3, h4⟩ := ih s.mem h' (by
      intro p h
      refine List.ext_getElem? fun j => ?_
      by_cases hj : i = j
      · subst hj
        rw [List.getElem?_set_self (List.getElem?_eq_some_iff.mp h).1]; exact h.symm
      · rw [List.getElem?_set_ne hj])
    refine ⟨i :: l, q, ?_, ?_, ?_, h4⟩
    · exact h1.trans (by rw [ht]; exact (hf s.mem).1)
    · exact h2.trans (by rw [ht]; exact (hf s.mem).2)
    · refine h3.trans ?_
      rw [ht]
      simp

/-- The same for a call that returns a value: it gets to the point where it switches warnings off, and does so. -/
theorem run_enter {m : Mem} (h : Imported u m) {calls : List Call} {i : ℕ} {c : Call} (hi : calls[i]? = some c)
    (hfl : c.isFlange) {v : Value} (hv : c.value u = .ok v) (l0 : List ℕ)
    (hcur : ((start u m calls).run l0).threads[i]? = some (c.prog u)) :
    ∃ (l : List ℕ) (a : ℕ) (g : Unit → Prog Value), (∀ x, Calm (g x)) ∧
      let s := (start u m calls).run l0
      let t := (start u m calls).run (l0 ++ l)
      t.mem.filters = (s.mem.filters ++ [(s.mem.filters[s.mem.current]?).getD []]).modify s.mem.filters.length
        (fun l => "ignore" :: l.erase "ignore") ∧
      t.mem.current = s.mem.filters.length ∧
      t.threads = s.threads.set i (.step (fun m => { m with frames := m.frames.modify a fun d =>
          ⟨d.index, d.cols.map fun c => (c.1, fillColumn d.index c.2)⟩ })
        fun _ => .step (fun m => { m with current := s.mem.current }) fun _ => g ()) := by
  obtain ⟨l, q, h1, h2, h3, h4⟩ := run_once (once_call hfl) hcur
  rw [← State.run_append] at h1 h2 h3
  have hlt : i < ((start u m calls).run l0).threads.length := (List.getElem?_eq_some_iff.mp hcur).1
  have hq : ((start u m calls).run (l0 ++ l)).threads[i]? = some q := by
    rw [h3]; exact List.getElem?_set_self hlt
  rcases h4 with ⟨e, rfl⟩ | ⟨a, g, hg, rfl⟩
  · obtain ⟨c', hc', he⟩ := (C90_any_schedule h calls (l0 ++ l)).1 i _ hq
    rw [hi] at hc'
    cases hc'
    rw [hv] at he
    cases he
  · refine ⟨l ++ [i, i], a, g, hg, ?_⟩
    simp only
    rw [← List.append_assoc, State.run_append]
    generalize hs : (start u m calls).run l0 = s at *
    generalize ht : (start u m calls).run (l0 ++ l) = t at *
    have e1 := tick_step (s := t) (i := i) hq
    have e2 := tick_step (s := t.tick i) (i := i) (by
      rw [e1]; exact List.getElem?_set_self (by rw [h3]; simpa using hlt))
    have e3 : t.run [i, i] = (t.tick i).tick i := rfl
    rw [e3, e2, e1]
    simp only [h1, h2, h3]
    refine ⟨trivial, trivial, ?_⟩
    simp only [List.set_set]
    rfl

/-- C91 is false for several threads: take any two lookups of flange ratings that return a value, and give one to each
of two threads.  There is a way for the threads to take turns after which both calls have returned their values and
the filters now in force begin with "ignore" for all warnings: the process ignores warnings from then on. -/
theorem C91_threads_violated {m : Mem} (h : Imported u m) {F : List String} (hF : m.filters[m.current]? = some F)
    {c0 c1 : Call} (h0 : c0.isFlange) (h1 : c1.isFlange) {v0 v1 : Value} (hv0 : c0.value u = .ok v0)
    (hv1 : c1.value u = .ok v1) :
    ∃ schedule, ((start u m [c0, c1]).run schedule).threads = [.done (.ok v0), .done (.ok v1)] ∧
      ((start u m [c0, c1]).run schedule).mem.filters[((start u m [c0, c1]).run schedule).mem.current]? =
        some ("ignore" :: F.erase "ignore") := by
  have hlt := h.filters
  obtain ⟨l0, a0, g0, hg0, p1, p2, p3⟩ := run_enter h (calls := [c0, c1]) (i := 0) rfl h0 hv0 [] rfl
  obtain ⟨l1, a1, g1, hg1, q1, q2, q3⟩ := run_enter h (calls := [c0, c1]) (i := 1) rfl h1 hv1 ([] ++ l0) (by
    rw [p3]; rfl)
  simp only [List.nil_append] at *
  generalize hs : (start u m [c0, c1]).run l0 = s at *
  generalize ht : (start u m [c0, c1]).run (l0 ++ l1) = t at *
  have hstart : (start u m [c0, c1]).run [] = ⟨m, [c0.prog u, c1.prog u]⟩ := rfl
  rw [hstart] at p1 p2 p3
  simp only [hF, Option.getD_some, List.set_cons_zero] at p1 p2 p3
  rw [p3] at q3
  simp only [List.set_cons_succ, List.set_cons_zero] at q3
  -- the first thread goes on to its end
  have hmod : s.mem.filters = m.filters ++ ["ignore" :: F.erase "ignore"] := by
    rw [p1]
    refine List.ext_getElem? fun j => ?_
    rw [List.getElem?_modify]
    by_cases hj : m.filters.length = j
    · subst hj; simp
    · simp only [if_neg hj]
      rcases Nat.lt_or_ge j m.filters.length with hl | hl
      · rw [List.getElem?_append_left hl, List.getElem?_append_left hl]; simp
      · rw [List.getElem?_eq_none (by simp; omega), List.getElem?_eq_none (by simp; omega)]; rfl
  have hsF : s.mem.filters[s.mem.current]? = some ("ignore" :: F.erase "ignore") := by
    rw [hmod, p2]; simp
  have e1 : t.run [0, 0] = (t.tick 0).tick 0 := rfl
  have t0 := tick_step (s := t) (i := 0) (by rw [q3]; rfl)
  have t1 := tick_step (s := t.tick 0) (i := 0) (by rw [t0, q3]; rfl)
  rw [t1, t0, q3] at e1
  simp only [List.set_cons_zero] at e1
  obtain ⟨l2, r2, w1, w2, w3⟩ := run_calm (hg0 ()) (s := t.run [0, 0]) (i := 0) (by rw [e1]; rfl)
  generalize hx : (t.run [0, 0]).run l2 = x at *
  rw [e1] at w1 w2 w3
  simp only [List.set_cons_zero] at w1 w2 w3
  -- and the second
  have e2 : x.run [1, 1] = (x.tick 1).tick 1 := rfl
  have x0 := tick_step (s := x) (i := 1) (by rw [w3]; rfl)
  have x1 := tick_step (s := x.tick 1) (i := 1) (by rw [x0, w3]; rfl)
  rw [x1, x0, w3] at e2
  simp only [List.set_cons_succ, List.set_cons_zero] at e2
  obtain ⟨l3, r3, y1, y2, y3⟩ := run_calm (hg1 ()) (s := x.run [1, 1]) (i := 1) (by rw [e2]; rfl)
  have htot : (start u m [c0, c1]).run (l0 ++ l1 ++ ([0, 0] ++ (l2 ++ ([1, 1] ++ l3)))) = (x.run [1, 1]).run l3 := by
    rw [State.run_append, ht, State.run_append, State.run_append, hx, State.run_append]
  refine ⟨l0 ++ l1 ++ ([0, 0] ++ (l2 ++ ([1, 1] ++ l3))), ?_, ?_⟩
  · have hval := C90_any_schedule h [c0, c1] (l0 ++ l1 ++ ([0, 0] ++ (l2 ++ ([1, 1] ++ l3))))
    rw [htot] at hval ⊢
    rw [e2] at y3
    have y3 : _ = [Prog.done r2, Prog.done r3] := y3
    have b0 := hval.1 0 r2 (by rw [e2] at *; rw [y3]; rfl)
    have b1 := hval.1 1 r3 (by rw [e2] at *; rw [y3]; rfl)
    obtain ⟨d0, hd0, rfl⟩ := b0
    obtain ⟨d1, hd1, rfl⟩ := b1
    cases hd0
    cases hd1
    rw [e2, y3, hv0, hv1]
  · rw [htot, y1, y2, e2]
    simp only
    rw [w1]
    have hl := (List.getElem?_eq_some_iff.mp hsF).1
    rw [q1, modify_ne (by omega), List.getElem?_append_left hl, hsF]

/-- Right after the import, with the filters Python starts with (shortened). -/
noncomputable def freshMem (u : Registry) : Mem := ⟨tables u Flange.lims, [["default", "ignore", "error"]], 0⟩

theorem freshMem_imported : Imported u (freshMem u) :=
  ⟨⟨Flange.lims, [], Flange.load_shipped, by simp [freshMem]⟩, by simp [freshMem]⟩

/-- Two different valid calls: the rating of class 150 in 304 at 200 degC, and the class in 304 for 85.3 bar at
400 degC. -/
noncomputable def example0 : Call := .maxPressure "150" (.quantity ⟨200, PUnit.degC, 7⟩) (.str "304")
noncomputable def example1 (reg : Registry) : Call :=
  .getClass reg (.quantity ⟨8530, ⟨1000, 0, Dim.pressure, by norm_num⟩, 3⟩) (.quantity ⟨400, PUnit.degC, 3⟩) (.str "304")

theorem example0_value : ∃ q, example0.value u = .ok (.quantity q) ∧ q.phys = 13.2 * 100000 := by
  have hc : Flange.IsCurve "304" "150" (Flange.curveOf 0 Data.group21Rows) :=
    ⟨("304", "2.1", 200, 78, 28), by decide, rfl, _, List.mem_cons_self, rfl, 0, rfl, rfl⟩
  obtain ⟨q, h1, h2⟩ := Flange.C45_at_table (u := u) (x := .quantity ⟨200, PUnit.degC, 7⟩) (r := (200, 13.2)) hc
    (by norm_num [Flange.curveOf, Data.group21Rows, Flange.cellBar]) ⟨rfl, by norm_num [PUnit.degC]⟩
  exact ⟨q, by simp only [example0, Call.value, h1, ok_bind], by rw [Quantity.phys, h2.off, h2.val, add_zero]⟩

theorem example1_value (reg : Registry) : (example1 reg).value u = .ok (.cls "900") := by
  have h := Flange.C43_rating_selects_class (u := u) (reg := reg) (c := "900") (material := "304") (t := 400) (p := 85.3)
    (curve := Flange.curveOf 4 Data.group21Rows)
    (x := .quantity ⟨8530, ⟨1000, 0, Dim.pressure, by norm_num⟩, 3⟩) (y := .quantity ⟨400, PUnit.degC, 3⟩)
    ⟨rfl, by norm_num⟩ ⟨rfl, by norm_num [PUnit.degC]⟩
    ⟨("304", "2.1", 200, 78, 28), by decide, rfl, _, List.mem_cons_self, rfl, 4, rfl, rfl⟩
    (by
      refine ⟨Flange.curveOf 4 (Data.group21Rows.take 11), (400, 85.3), (425, 84),
        Flange.curveOf 4 (Data.group21Rows.drop 13), ?_, by norm_num, by norm_num, by norm_num⟩
      norm_num [Flange.curveOf, Data.group21Rows, Flange.cellBar])
  simp only [example1, Call.value, h, ok_bind]

/-- The hypotheses of C90 and C91 are met right after the import, with these two calls; and the list in force after the
bad schedule is not the original one. -/
example (reg : Registry) : ∃ schedule,
    ((start u (freshMem u) [example0, example1 reg]).run schedule).mem.filters[
      ((start u (freshMem u) [example0, example1 reg]).run schedule).mem.current]? =
        some ["ignore", "default", "error"] ∧
    (freshMem u).filters[(freshMem u).current]? = some ["default", "ignore", "error"] := by
  obtain ⟨q, h, -⟩ := example0_value (u := u)
  obtain ⟨sch, -, h2⟩ := C91_threads_violated freshMem_imported (F := ["default", "ignore", "error"]) rfl
    (c0 := example0) (c1 := example1 reg) trivial trivial h (example1_value reg)
  exact ⟨sch, h2, rfl⟩

/-- C90 with calls of two classes of the package, one of them invalid: whatever the schedule, a thread that has ended
has the inner diameter of 2 inch schedule 40 pipe, an IndexError for a material that is not a string, the flange class
900, or Poisson's ratio of 304. -/
example (reg : Registry) (schedule : List ℕ) :
    let s := (start u (freshMem u) [.dimensions reg "2" "40", .poisson (.other "304"), example1 reg,
      .poisson (.str "304")]).run schedule
    (∀ r, s.threads[0]? = some (.done r) → ∃ d, r = .ok (.dimensions d) ∧ d.inner.mag = (2.067 : ℝ)) ∧
    (∀ r, s.threads[1]? = some (.done r) → r = .error .indexError) ∧
    (∀ r, s.threads[2]? = some (.done r) → r = .ok (.cls "900")) ∧
    (∀ r, s.threads[3]? = some (.done r) → r = .ok (.number 0.28)) := by
  intro s
  have h := (C90_any_schedule (u := u) freshMem_imported [.dimensions reg "2" "40", .poisson (.other "304"),
    example1 reg, .poisson (.str "304")] schedule).1
  refine ⟨fun r hr => ?_, fun r hr => ?_, fun r hr => ?_, fun r hr => ?_⟩
  · obtain ⟨c, hc, rfl⟩ := h 0 r hr
    cases hc
    have hm : ("2", [some 2375, some 65, some 65, some 109, some 109, none, none, some 154, some 154, none, some 218,
      some 218, none, none, none, some 343, some 436]) ∈ Data.pipeRows := by decide +kernel
    have := (Tube.C27_dimensions (reg := reg) (size := "2") (schedule := "40")).1 2375 154 ⟨_, hm, 0, rfl, rfl⟩
      ⟨_, hm, 8, rfl, rfl⟩ (by decide)
    refine ⟨⟨⟨((2375 : ℕ) : ℝ) / 1000 - 2 * (((154 : ℕ) : ℝ) / 1000), PUnit.inch, reg.id⟩,
      ⟨((2375 : ℕ) : ℝ) / 1000, PUnit.inch, reg.id⟩, ⟨((154 : ℕ) : ℝ) / 1000, PUnit.inch, reg.id⟩⟩, ?_, by norm_num⟩
    simp only [Call.value, this, ok_bind]
  · obtain ⟨c, hc, rfl⟩ := h 1 r hr
    cases hc
    simp only [Call.value, (Tube.C41_violated (reg := reg)).2.2]
    rfl
  · obtain ⟨c, hc, rfl⟩ := h 2 r hr
    cases hc
    exact example1_value reg
  · obtain ⟨c, hc, rfl⟩ := h 3 r hr
    cases hc
    have := ((Tube.C41_getters_string_partial (reg := reg)).1 (grade := "304") (grp := "2.1") (e := 200) (d := 78)
      (p := 28) (by decide)).2.2
    simp only [Call.value, this, ok_bind]
    norm_num

end Pypbomb.Frames
