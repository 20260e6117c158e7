/-
Properties C27-C31 and C41: the lookup tables of class `Tube`.
-/
import Verif.Lemmas.Pint
import Verif.Lemmas.Numpy
import Verif.Lemmas.Table
import Verif.Model.Tube

namespace Pypbomb.Tube
open Quantity

variable {reg : Registry} {size schedule material : String} {welded : Bool}

/-! ### C27, C28: pipe dimensions -/

/-- The pipe table has, in the row of `size` and the column `col`, the value `v` (0.001 inch). -/
def PipeCell (size col : String) (v : ℕ) : Prop :=
  ∃ cells, (size, cells) ∈ Data.pipeRows ∧ ∃ i : ℕ, Data.pipeCols[i]? = some col ∧
    cells[i]? = some (some v)

theorem pipe_sizes_nodup : (Data.pipeRows.map (·.1)).Nodup := by decide +kernel
theorem pipe_cols_nodup : Data.pipeCols.Nodup := by decide +kernel
theorem pipe_od : ∀ r ∈ Data.pipeRows, ∃ v, r.2[0]? = some (some v) := by
  have : ∀ r ∈ Data.pipeRows, (r.2[0]?.join).isSome = true := by decide +kernel
  intro r hr
  obtain ⟨v, hv⟩ := Option.isSome_iff_exists.mp (this r hr)
  exact ⟨v, Option.join_eq_some_iff.mp hv⟩

theorem pipeRow_iff {cells : List (Option ℕ)} :
    pipeRow size = some cells ↔ (size, cells) ∈ Data.pipeRows := lookup_iff_mem pipe_sizes_nodup

theorem cell_unique {c : String} {v w : ℕ} (h : PipeCell size c v) (h' : PipeCell size c w) :
    v = w := by
  obtain ⟨x, hx, i, hi, hv⟩ := h
  obtain ⟨y, hy, j, hj, hw⟩ := h'
  obtain rfl : x = y := Option.some.inj ((pipeRow_iff.mpr hx).symm.trans (pipeRow_iff.mpr hy))
  have h1 := zip_lookup pipe_cols_nodup hi hv
  have h2 := zip_lookup pipe_cols_nodup hj hw
  exact Option.some.inj (Option.some.inj (h1.symm.trans h2))

/-- C27: the available schedules of a size in the table are exactly the other columns with a value; any
other size raises ValueError. -/
theorem C27_available_schedules :
    (∀ l, availableSchedules size = .ok l →
      ∀ s, s ∈ l ↔ s ≠ "OD" ∧ ∃ v, PipeCell size s v) ∧
    ((∃ cells, (size, cells) ∈ Data.pipeRows) → Returns (availableSchedules size)) ∧
    ((∀ cells, (size, cells) ∉ Data.pipeRows) → IsValueError (availableSchedules size)) := by
  refine ⟨?_, ?_, ?_⟩
  · intro l h s
    unfold availableSchedules at h
    split at h
    · simp at h
    · rename_i cells hr
      simp only [Except.ok.injEq] at h
      subst h
      have hnd : (((Data.pipeCols.zip cells).filter (·.2.isSome)).map (·.1)).Nodup := by
        refine List.Nodup.sublist (List.Sublist.map _ List.filter_sublist) ?_
        exact List.Nodup.sublist (map_fst_zip_sublist _ _) pipe_cols_nodup
      rw [hnd.mem_erase_iff, List.mem_map]
      refine and_congr_right fun _ => ?_
      constructor
      · rintro ⟨⟨a, b⟩, hm, rfl⟩
        obtain ⟨hm, hs⟩ := List.mem_filter.mp hm
        obtain ⟨v, hv⟩ := Option.isSome_iff_exists.mp hs
        obtain ⟨i, h1, h2⟩ := mem_zip_iff.mp hm
        exact ⟨v, cells, pipeRow_iff.mp hr, i, h1, by rw [h2]; exact congrArg some hv⟩
      · rintro ⟨v, cells', hm, i, h1, h2⟩
        obtain rfl : cells = cells' := Option.some.inj (hr.symm.trans (pipeRow_iff.mpr hm))
        exact ⟨(s, some v), List.mem_filter.mpr ⟨mem_zip_iff.mpr ⟨i, h1, h2⟩, rfl⟩, rfl⟩
  · rintro ⟨cells, h⟩
    unfold availableSchedules
    rw [pipeRow_iff.mpr h]
    exact ⟨_, rfl⟩
  · intro h
    unfold availableSchedules
    cases hr : pipeRow size with
    | none => exact ⟨_, rfl⟩
    | some cells => exact absurd (pipeRow_iff.mp hr) (h cells)

/-- C27: `get_dimensions` returns exactly for the (size, schedule) pairs in the table, with outer
diameter and wall thickness from the table (inches of the requested registry) and inner diameter
`OD - 2 wall`; every other pair, and the schedule "OD", raises ValueError. -/
theorem C27_dimensions :
    (∀ od w, PipeCell size "OD" od → PipeCell size schedule w → schedule ≠ "OD" →
      dimensions reg size schedule = .ok
        ⟨⟨(od : ℝ) / 1000 - 2 * ((w : ℝ) / 1000), PUnit.inch, reg.id⟩,
          ⟨(od : ℝ) / 1000, PUnit.inch, reg.id⟩, ⟨(w : ℝ) / 1000, PUnit.inch, reg.id⟩⟩) ∧
    ((schedule = "OD" ∨ ∀ w, ¬ PipeCell size schedule w) →
      IsValueError (dimensions reg size schedule)) := by
  obtain ⟨a1, a2, a3⟩ := C27_available_schedules (size := size)
  constructor
  · intro od w hod hw hne
    have hw0 := hw
    have hod0 := hod
    obtain ⟨cells, hm, i, h1, h2⟩ := hw
    obtain ⟨cells', hm', j, h3, h4⟩ := hod
    have hr := pipeRow_iff.mpr hm
    obtain rfl : cells = cells' := Option.some.inj (hr.symm.trans (pipeRow_iff.mpr hm'))
    obtain ⟨l, hl⟩ := a2 ⟨cells, hm⟩
    have hmem := (a1 l hl schedule).mpr ⟨hne, w, hw0⟩
    simp only [dimensions, hl, ok_bind]
    rw [if_neg (not_not.mpr hmem)]
    simp only [hr, Option.bind_some, zip_lookup pipe_cols_nodup h1 h2,
      zip_lookup pipe_cols_nodup h3 h4, Option.join_some]
  · intro h
    by_cases hs : ∃ cells, (size, cells) ∈ Data.pipeRows
    · obtain ⟨l, hl⟩ := a2 hs
      have hnm : schedule ∉ l := by
        rw [a1 l hl schedule]
        rintro ⟨h5, w, h6⟩
        rcases h with h | h
        · exact h5 h
        · exact h w h6
      refine ⟨scheduleMessage schedule size, ?_⟩
      simp only [dimensions, hl, ok_bind]
      rw [if_pos hnm]
    · obtain ⟨m, e⟩ := a3 (not_exists.mp hs)
      exact ⟨m, by simp only [dimensions, e, err_bind]⟩

/-- Every wall thickness in the table is positive. -/
theorem pipe_wall_pos {v : ℕ} {c : String} (h : PipeCell size c v) : 0 < v := by
  have key : ∀ r ∈ Data.pipeRows, ∀ x ∈ r.2, ∀ y ∈ x, 0 < y := by decide +kernel
  obtain ⟨cells, hm, i, -, h2⟩ := h
  exact key _ hm _ (List.mem_of_getElem? h2) v rfl

/-- C27: whenever dimensions are returned, outer = inner + 2 wall (all in inches of the requested
registry), the wall is positive and the outer diameter exceeds the inner one; and this happens exactly
when the schedule is listed as available. -/
theorem C27_consistent {d : Dimensions} (h : dimensions reg size schedule = .ok d) :
    d.outer.mag = d.inner.mag + 2 * d.wall.mag ∧ 0 < d.wall.mag ∧ d.inner.mag < d.outer.mag ∧
    (d.inner.unit = PUnit.inch ∧ d.outer.unit = PUnit.inch ∧ d.wall.unit = PUnit.inch) ∧
    (d.inner.reg = reg.id ∧ d.outer.reg = reg.id ∧ d.wall.reg = reg.id) ∧
    ∃ l, availableSchedules size = .ok l ∧ schedule ∈ l := by
  obtain ⟨h1, h2⟩ := C27_dimensions (reg := reg) (size := size) (schedule := schedule)
  obtain ⟨a1, a2, -⟩ := C27_available_schedules (size := size)
  by_cases hne : schedule = "OD" ∨ ∀ w, ¬ PipeCell size schedule w
  · obtain ⟨m, e⟩ := h2 hne
    rw [e] at h; simp at h
  · rw [not_or, not_forall] at hne
    obtain ⟨hne, w, hw⟩ := hne
    have hw := not_not.mp hw
    have hw' := hw
    obtain ⟨cells, hm, -⟩ := hw'
    obtain ⟨od, hod⟩ := pipe_od _ hm
    have e := h1 od w ⟨cells, hm, 0, rfl, hod⟩ hw hne
    rw [e, Except.ok.injEq] at h
    subst h
    have wp : (0 : ℝ) < w := by exact_mod_cast pipe_wall_pos hw
    obtain ⟨l, hl⟩ := a2 ⟨cells, hm⟩
    refine ⟨by simp, by simpa using wp, by simpa using wp, ⟨rfl, rfl, rfl⟩, ⟨rfl, rfl, rfl⟩, l, hl, ?_⟩
    exact (a1 l hl schedule).mpr ⟨hne, w, hw⟩

/-- A 2 inch schedule 40 pipe is in the table (OD 2.375 in, wall 0.154 in). -/
example : PipeCell "2" "OD" 2375 ∧ PipeCell "2" "40" 154 :=
  ⟨⟨[some 2375, some 65, some 65, some 109, some 109, none, none, some 154, some 154, none, some 218, some 218, none, none, none, some 343, some 436],
    by decide +kernel, 0, rfl, rfl⟩,
   ⟨[some 2375, some 65, some 65, some 109, some 109, none, none, some 154, some 154, none, some 218, some 218, none, none, none, some 343, some 436],
    by decide +kernel, 8, rfl, rfl⟩⟩

/-- C28 is false: the table lists a 312 inch wall for 28 inch schedule 10 pipe, so `get_dimensions`
returns an inner diameter of -596 inches. -/
theorem C28_violated : ∃ d, dimensions reg "28" "10" = .ok d ∧ d.inner.mag = -596 ∧
    d.inner.unit = PUnit.inch := by
  have hm : ("28", [some 28000, none, none, none, some 312000, some 500, some 625, some 375, none, none, none, none, none, none, none, none, none]) ∈ Data.pipeRows := by
    decide +kernel
  have h := (C27_dimensions (reg := reg) (size := "28") (schedule := "10")).1 28000 312000
    ⟨_, hm, 0, rfl, rfl⟩ ⟨_, hm, 4, rfl, rfl⟩ (by decide)
  exact ⟨_, h, by norm_num, rfl⟩

/-- C28, proved part: for every other accepted pair the inner diameter is positive. -/
theorem C28_inner_positive_partial {d : Dimensions} (h : dimensions reg size schedule = .ok d)
    (hne : ¬ (size = "28" ∧ schedule = "10")) : 0 < d.inner.mag := by
  obtain ⟨h1, h2⟩ := C27_dimensions (reg := reg) (size := size) (schedule := schedule)
  by_cases hn : schedule = "OD" ∨ ∀ w, ¬ PipeCell size schedule w
  · obtain ⟨m, e⟩ := h2 hn
    rw [e] at h; simp at h
  · rw [not_or, not_forall] at hn
    obtain ⟨hn, w, hw⟩ := hn
    have hw := not_not.mp hw
    obtain ⟨cells, hm, i, hi, hv⟩ := not_not.mp (not_not.mpr hw)
    obtain ⟨od, hod⟩ := pipe_od _ hm
    have e := h1 od w ⟨cells, hm, 0, rfl, hod⟩ hw hn
    rw [e, Except.ok.injEq] at h
    subst h
    have key : ∀ r ∈ Data.pipeRows, ∀ c ∈ Data.pipeCols.zip r.2, ¬ (r.1 = "28" ∧ c.1 = "10") →
        c.1 ≠ "OD" → ∀ o ∈ r.2[0]?.join, ∀ w ∈ c.2, 2 * w < o := by decide +kernel
    have := key _ hm (schedule, some w) (mem_zip_iff.mpr ⟨i, hi, hv⟩) hne hn od (by simp [hod]) w rfl
    have : (2 * w : ℝ) < od := by exact_mod_cast this
    simp only
    linarith

/-! ### C29-C31: allowable stress -/

/-- `x` is a temperature of `t` degrees Fahrenheit, in any temperature unit. -/
def IsDegF (reg : Registry) (x : QIn) (t : ℝ) : Prop :=
  Denotes reg x Dim.temperature ((t + 459.67) * (5 / 9))

/-- Rows of the stress table for welded/seamless pipe. -/
abbrev stressRows (welded : Bool) : List (ℤ × List ℕ) :=
  if welded then Data.weldedRows else Data.seamlessRows
/-- Column names of the stress table for welded/seamless pipe. -/
abbrev stressCols (welded : Bool) : List String :=
  if welded then Data.weldedCols else Data.seamlessCols

/-- Real points of column `i`. -/
noncomputable def points (i : ℕ) (rows : List (ℤ × List ℕ)) : List (ℝ × ℝ) :=
  rows.map fun r => ((r.1 : ℝ), (r.2.getD i 0 : ℝ) / 10)

/-- Temperatures increase and stresses do not, in column `i`. -/
def chk (i : ℕ) : List (ℤ × List ℕ) → Bool
  | a :: b :: l => decide (a.1 < b.1) && decide (b.2.getD i 0 ≤ a.2.getD i 0) && chk i (b :: l)
  | _ => true

theorem points_of_chk {i : ℕ} {rows : List (ℤ × List ℕ)} (h : chk i rows = true) :
    Inc (points i rows) ∧ Dec (points i rows) := by
  induction rows with
  | nil => exact ⟨trivial, trivial⟩
  | cons a l ih =>
    cases l with
    | nil => exact ⟨trivial, trivial⟩
    | cons b l =>
      simp only [chk, Bool.and_eq_true, decide_eq_true_eq] at h
      obtain ⟨⟨h1, h2⟩, h3⟩ := h
      obtain ⟨i1, i2⟩ := ih h3
      refine ⟨⟨?_, i1⟩, ⟨?_, i2⟩⟩
      · show (a.1 : ℝ) < b.1
        exact_mod_cast h1
      · show ((b.2.getD i 0 : ℕ) : ℝ) / 10 ≤ ((a.2.getD i 0 : ℕ) : ℝ) / 10
        have : ((b.2.getD i 0 : ℕ) : ℝ) ≤ (a.2.getD i 0 : ℕ) := by exact_mod_cast h2
        linarith

theorem stress_chk (welded : Bool) : ∀ i < 7, chk i (stressRows welded) = true := by
  cases welded <;> decide +kernel

theorem stress_len (welded : Bool) : ∀ r ∈ stressRows welded, r.2.length = 7 := by
  cases welded <;> decide +kernel

theorem stress_cols (welded : Bool) : (stressCols welded).Nodup ∧ "Temp" ∉ stressCols welded ∧
    (stressCols welded).length = 7 := by
  cases welded <;> decide +kernel

theorem limits_eq (welded : Bool) : limits welded = ⟨stressCols welded, stressRows welded⟩ := by
  cases welded <;> rfl

theorem col_lt {i : ℕ} (hi : (stressCols welded)[i]? = some material) : i < 7 := by
  rw [← (stress_cols welded).2.2]
  exact (List.getElem?_eq_some_iff.mp hi).1

theorem stressLimits_eq {i : ℕ} (hi : (stressCols welded)[i]? = some material) :
    stressLimits material welded = .ok (points i (stressRows welded)) := by
  have hm : material ∈ stressCols welded := List.mem_of_getElem? hi
  have hne : material ≠ "Temp" := fun h => (stress_cols welded).2.1 (h ▸ hm)
  unfold stressLimits
  simp only [limits_eq]
  rw [if_pos (List.mem_cons_of_mem _ hm)]
  congr 1
  rw [points, ← List.filterMap_eq_map]
  apply List.filterMap_congr
  intro r hr
  have hl := stress_len welded r hr
  have hlt : i < r.2.length := by rw [hl]; exact col_lt hi
  have hv : r.2[i]? = some (r.2.getD i 0) := by
    rw [List.getD_eq_getElem?_getD, List.getElem?_eq_getElem hlt]; rfl
  have := zip_lookup (stress_cols welded).1 hi hv
  simp only [cell, if_neg hne, this, Option.map_some, Function.comp]

/-- Evaluation of `calculate_max_stress` on a tabulated material. -/
theorem maxStress_eval {x : QIn} {t : ℝ} {i : ℕ} (hx : IsDegF reg x t)
    (hi : (stressCols welded)[i]? = some material) :
    maxStress reg x material welded =
      .ok ⟨npInterp t (points i (stressRows welded)), PUnit.ksi, reg.id⟩ := by
  obtain ⟨q, e, hd, hp, hr⟩ := parse_any hx
  obtain ⟨h1, -⟩ := points_of_chk (stress_chk welded i (col_lt hi))
  have hc : q.convert PUnit.degF = .ok ⟨t, PUnit.degF, q.reg⟩ := by
    unfold convert
    rw [if_pos (by rw [hd]; rfl), hp]
    congr 2
    simp only [PUnit.degF]
    norm_num
    ring
  simp only [maxStress, e, ok_bind, stressLimits_eq hi, if_pos h1, hc]

/-- C29: between two neighbouring tabulated temperatures the allowable stress is the linear
interpolation of the tabulated stresses (in ksi, in the requested registry), whatever the temperature
unit. -/
theorem C29_interpolates {x : QIn} {t : ℝ} {i s s' : ℕ} {r r' : ℤ × List ℕ}
    {pre post : List (ℤ × List ℕ)} (hx : IsDegF reg x t)
    (hi : (stressCols welded)[i]? = some material)
    (hrows : stressRows welded = pre ++ r :: r' :: post)
    (hs : r.2[i]? = some s) (hs' : r'.2[i]? = some s') (h1 : r.1 ≤ t) (h2 : t ≤ r'.1) :
    maxStress reg x material welded = .ok
      ⟨(s : ℝ) / 10 + ((s' : ℝ) / 10 - (s : ℝ) / 10) * ((t - r.1) / (r'.1 - r.1)), PUnit.ksi,
        reg.id⟩ := by
  rw [maxStress_eval hx hi]
  obtain ⟨hinc, -⟩ := points_of_chk (stress_chk welded i (col_lt hi))
  rw [hrows] at hinc ⊢
  simp only [points, List.map_append, List.map_cons] at hinc ⊢
  rw [npInterp_mid _ hinc h1 h2]
  simp only [List.getD_eq_getElem?_getD, hs, hs', Option.getD_some]

/-- C29: at a tabulated temperature the allowable stress is the tabulated one. -/
theorem C29_at_table {x : QIn} {i s : ℕ} {r : ℤ × List ℕ} (hr : r ∈ stressRows welded)
    (hx : IsDegF reg x r.1) (hi : (stressCols welded)[i]? = some material)
    (hs : r.2[i]? = some s) :
    maxStress reg x material welded = .ok ⟨(s : ℝ) / 10, PUnit.ksi, reg.id⟩ := by
  rw [maxStress_eval hx hi]
  obtain ⟨hinc, -⟩ := points_of_chk (stress_chk welded i (col_lt hi))
  obtain ⟨pre, post, hp⟩ := List.append_of_mem hr
  rw [hp] at hinc ⊢
  simp only [points, List.map_append, List.map_cons] at hinc ⊢
  rw [npInterp_knot _ hinc]
  simp only [List.getD_eq_getElem?_getD, hs, Option.getD_some]

/-- C29: in pascals, the allowable stress at a tabulated temperature is the tabulated number of thousands of
pounds-force per square inch. -/
theorem C29_pascal {x : QIn} {i s : ℕ} {r : ℤ × List ℕ} (hr : r ∈ stressRows welded)
    (hx : IsDegF reg x r.1) (hi : (stressCols welded)[i]? = some material)
    (hs : r.2[i]? = some s) :
    ∃ q, maxStress reg x material welded = .ok q ∧
      HasVal q Dim.pressure ((s : ℝ) / 10 * (1000 * psiPa)) reg.id :=
  ⟨_, C29_at_table hr hx hi hs, ⟨rfl, rfl, rfl, rfl⟩⟩

/-- C29: the allowable stress never increases with temperature, over all temperatures. -/
theorem C29_antitone {x x' : QIn} {t t' : ℝ} (hx : IsDegF reg x t) (hx' : IsDegF reg x' t')
    (hm : material ∈ stressCols welded) (htt : t ≤ t') :
    ∃ q q', maxStress reg x material welded = .ok q ∧ maxStress reg x' material welded = .ok q' ∧
      q.unit = PUnit.ksi ∧ q'.unit = PUnit.ksi ∧ q'.mag ≤ q.mag := by
  obtain ⟨i, hi⟩ := List.mem_iff_getElem?.mp hm
  obtain ⟨h1, h2⟩ := points_of_chk (stress_chk welded i (col_lt hi))
  exact ⟨_, _, maxStress_eval hx hi, maxStress_eval hx' hi, rfl, rfl, npInterp_antitone h1 h2 htt⟩

/-- C29: the allowable stress is never negative and never exceeds the coldest tabulated value. -/
theorem C29_bounds {x : QIn} {t : ℝ} {i s : ℕ} {r : ℤ × List ℕ} (hx : IsDegF reg x t)
    (hi : (stressCols welded)[i]? = some material)
    (hr : (stressRows welded).head? = some r) (hs : r.2[i]? = some s) :
    ∃ q, maxStress reg x material welded = .ok q ∧ q.unit = PUnit.ksi ∧ q.reg = reg.id ∧
      0 ≤ q.mag ∧ q.mag ≤ s / 10 := by
  obtain ⟨h1, h2⟩ := points_of_chk (stress_chk welded i (col_lt hi))
  refine ⟨_, maxStress_eval hx hi, rfl, rfl, ?_, ?_⟩
  · apply npInterp_ge h1
    · intro h
      have hn : stressRows welded = [] := by simpa [points] using h
      rw [hn] at hr; simp at hr
    · intro p hp
      obtain ⟨a, -, rfl⟩ := List.mem_map.mp hp
      positivity
  · obtain ⟨l, hl⟩ : ∃ l, stressRows welded = r :: l := by
      cases hh : stressRows welded with
      | nil => rw [hh] at hr; simp at hr
      | cons a l => rw [hh] at hr; simp only [List.head?_cons, Option.some.injEq] at hr; exact ⟨l, by rw [hr]⟩
    rw [hl] at h1 h2 ⊢
    have h3 := npInterp_le_head h1 h2 t
    simpa [points, List.getD_eq_getElem?_getD, hs] using h3

/-- C29: an unknown material raises KeyError and a non-temperature raises. -/
theorem C29_rejects {x : QIn} :
    (∀ {t}, IsDegF reg x t → material ≠ "Temp" → material ∉ stressCols welded →
      maxStress reg x material welded = .error (.keyError material)) ∧
    (∀ {d v}, Denotes reg x d v → d ≠ Dim.temperature → Raises (maxStress reg x material welded)) := by
  constructor
  · intro t hx hT hm
    obtain ⟨q, e, -⟩ := parse_any hx
    have : stressLimits material welded = .error (.keyError material) := by
      unfold stressLimits
      simp only [limits_eq]
      rw [if_neg]
      simp only [List.mem_cons, not_or]
      exact ⟨hT, hm⟩
    simp only [maxStress, e, ok_bind, this, err_bind]
  · intro d v hx hd
    obtain ⟨q, e, h1, -⟩ := parse_any hx
    simp only [maxStress, e, ok_bind]
    cases stressLimits material welded with
    | error err => exact ⟨err, rfl⟩
    | ok pts =>
      simp only [ok_bind]
      split
      · refine ⟨.dimensionality, ?_⟩
        have : q.convert PUnit.degF = .error .dimensionality := by
          unfold convert
          rw [if_neg]
          rw [h1]; exact hd
        rw [this]; rfl
      · exact ⟨_, rfl⟩

/-- Hypotheses of C29 are met: 70 degC is 158 degF, between the 100 and 200 degF rows for 304. -/
example : IsDegF reg (.quantity ⟨70, PUnit.degC, 0⟩) 158 ∧
    (stressCols true)[0]? = some "304" ∧
    stressRows true = [(-20, [160, 160, 160, 160, 160, 133, 133])] ++
      (100, [160, 160, 160, 160, 160, 133, 133]) :: (200, [133, 133, 138, 138, 138, 114, 113]) ::
        (stressRows true).drop 3 := by
  refine ⟨⟨rfl, ?_⟩, rfl, rfl⟩
  norm_num [PUnit.degC, PUnit.degF]

/-- C30 is false: beyond either end of the table the end value is returned, for every temperature (also
below absolute zero). -/
theorem C30_violated {x : QIn} {t : ℝ} {i s : ℕ} {r : ℤ × List ℕ} (hx : IsDegF reg x t)
    (hi : (stressCols welded)[i]? = some material) (hs : r.2[i]? = some s)
    (hr : (stressRows welded).head? = some r ∧ t < r.1 ∨
      (stressRows welded).getLast? = some r ∧ r.1 < t) :
    maxStress reg x material welded = .ok ⟨(s : ℝ) / 10, PUnit.ksi, reg.id⟩ := by
  rw [maxStress_eval hx hi]
  obtain ⟨hinc, -⟩ := points_of_chk (stress_chk welded i (col_lt hi))
  rcases hr with ⟨hr, ht⟩ | ⟨hr, ht⟩
  · obtain ⟨l, hl⟩ : ∃ l, stressRows welded = r :: l := by
      cases hh : stressRows welded with
      | nil => rw [hh] at hr; simp at hr
      | cons a l => rw [hh] at hr; simp only [List.head?_cons, Option.some.injEq] at hr; exact ⟨l, by rw [hr]⟩
    rw [hl] at hinc ⊢
    simp only [points, List.map_cons] at hinc ⊢
    rw [npInterp_left hinc ht.le]
    simp only [List.getD_eq_getElem?_getD, hs, Option.getD_some]
  · obtain ⟨l, hl⟩ := List.getLast?_eq_some_iff.mp hr
    rw [hl] at hinc ⊢
    simp only [points, List.map_append, List.map_cons, List.map_nil] at hinc ⊢
    rw [npInterp_right _ hinc ht.le]
    simp only [List.getD_eq_getElem?_getD, hs, Option.getD_some]

/-- C30, exactly: whether `calculate_max_stress` returns does not depend on the value of the temperature at all. It returns if and
only if the argument is a temperature and the material is a column of the table (the temperature column included). -/
theorem C30_returns_iff {x : QIn} :
    Returns (maxStress reg x material welded) ↔
      (∃ t, IsDegF reg x t) ∧ (material = "Temp" ∨ material ∈ stressCols welded) := by
  constructor
  · rintro ⟨a, h⟩
    simp only [maxStress, bind_eq_ok] at h
    obtain ⟨q, e, pts, hp, h⟩ := h
    refine ⟨?_, ?_⟩
    · split_ifs at h
      simp only [bind_eq_ok] at h
      obtain ⟨tf, ht, -⟩ := h
      unfold convert at ht
      split_ifs at ht with hd
      refine ⟨(q.mag * q.unit.scale + q.unit.offset) * (9 / 5) - 459.67, ?_⟩
      have key : (q.mag * q.unit.scale + q.unit.offset) =
          ((q.mag * q.unit.scale + q.unit.offset) * (9 / 5) - 459.67 + 459.67) * (5 / 9) := by ring
      cases x with
      | quantity q' =>
        simp only [parseQ, Except.ok.injEq] at e
        subst e
        exact ⟨hd, key⟩
      | pair m s =>
        simp only [parseQ] at e
        split at e
        · simp at e
        · rename_i pu hpu
          simp only [Except.ok.injEq] at e
          subst e
          exact ⟨pu, hpu, hd, key⟩
      | other => simp [parseQ] at e
    · unfold stressLimits at hp
      simp only [limits_eq] at hp
      split_ifs at hp with hm
      simpa using hm
  · rintro ⟨⟨t, hx⟩, hm | hm⟩
    · subst hm
      obtain ⟨q, e, hd, hp, hr⟩ := parse_any hx
      have hl : stressLimits "Temp" welded = .ok ((stressRows welded).map fun r => ((r.1 : ℝ), (r.1 : ℝ))) := by
        unfold stressLimits
        simp only [limits_eq, List.mem_cons, true_or, if_true, cell, Option.map_some, List.filterMap_eq_map']
      have hinc : Inc ((stressRows welded).map fun r => ((r.1 : ℝ), (r.1 : ℝ))) := by
        have h := (points_of_chk (stress_chk welded 0 (by cases welded <;> decide))).1
        have : ∀ l : List (ℤ × List ℕ), Inc (points 0 l) → Inc (l.map fun r => ((r.1 : ℝ), (r.1 : ℝ))) := by
          intro l
          induction l with
          | nil => intro _; trivial
          | cons a l ih =>
            cases l with
            | nil => intro _; trivial
            | cons b l => exact fun h => ⟨h.1, ih h.2⟩
        exact this _ h
      have hc : ∃ r, q.convert PUnit.degF = .ok r := ⟨_, by unfold convert; rw [if_pos (by rw [hd]; rfl)]⟩
      obtain ⟨r, hc⟩ := hc
      exact ⟨_, by simp only [maxStress, e, ok_bind, hl, if_pos hinc, hc]; rfl⟩
    · obtain ⟨i, hi⟩ := List.mem_iff_getElem?.mp hm
      exact ⟨_, maxStress_eval hx hi⟩

/-- The last row is 1200 degF; e.g. 304 at 5000 degF is rated 6.1 ksi (seamless). -/
example : (stressRows false).getLast? = some (1200, [61, 61, 74, 74, 74, 0, 0]) ∧
    (stressCols false)[0]? = some "304" := ⟨rfl, rfl⟩

/-- Column-wise comparison of the two tables. -/
theorem welded_le_seamless : ∀ i < 7,
    List.Forall₂ (fun a b : ℤ × List ℕ => a.1 = b.1 ∧ a.2.getD i 0 ≤ b.2.getD i 0) Data.weldedRows
      Data.seamlessRows := by decide +kernel

/-- C31: at every temperature, welded pipe is rated at most as high as seamless pipe of the same
material. -/
theorem C31_welded_le_seamless {x : QIn} {t : ℝ} (hx : IsDegF reg x t)
    (hm : material ∈ Data.weldedCols) :
    ∃ w s, maxStress reg x material true = .ok w ∧ maxStress reg x material false = .ok s ∧
      w.unit = PUnit.ksi ∧ s.unit = PUnit.ksi ∧ w.mag ≤ s.mag := by
  obtain ⟨i, hi⟩ := List.mem_iff_getElem?.mp hm
  have hi' : (stressCols false)[i]? = some material := by
    have : Data.seamlessCols = Data.weldedCols := by decide
    show Data.seamlessCols[i]? = some material
    rw [this]; exact hi
  have hlt : i < 7 := col_lt (welded := true) hi
  refine ⟨_, _, maxStress_eval (welded := true) hx hi, maxStress_eval (welded := false) hx hi',
    rfl, rfl, ?_⟩
  apply npInterp_mono (points_of_chk (stress_chk true i hlt)).1
  unfold points
  rw [List.forall₂_map_left_iff, List.forall₂_map_right_iff]
  refine List.Forall₂.imp ?_ (welded_le_seamless i hlt)
  rintro a b ⟨h1, h2⟩
  have : ((a.2.getD i 0 : ℕ) : ℝ) ≤ (b.2.getD i 0 : ℕ) := by exact_mod_cast h2
  exact ⟨by rw [h1], by simp only; linarith⟩

/-! ### C41: material properties -/

/-- C41 (strings): each getter returns the value of the material's row in the requested registry, and
raises ValueError for every string that is not a listed grade. -/
theorem C41_getters_string_partial :
    (∀ {grade grp : String} {e d p : ℕ}, (grade, grp, e, d, p) ∈ Data.materialRows →
      elasticModulus reg (.str grade) = .ok ⟨(e : ℝ), PUnit.gigapascal, reg.id⟩ ∧
      density reg (.str grade) = .ok ⟨(d : ℝ) / 10, PUnit.gramPerCC, reg.id⟩ ∧
      poisson (.str grade) = .ok ((p : ℝ) / 100)) ∧
    (∀ m : MatIn, (∀ r ∈ Data.materialRows, r.1 ≠ m.toStr) →
      IsValueError (elasticModulus reg m) ∧ IsValueError (density reg m) ∧
        IsValueError (poisson m)) := by
  constructor
  · intro grade grp e d p h
    have key : ∀ r ∈ Data.materialRows,
        Data.materialRows.filter (fun x => decide (x.1 = r.1)) = [r] := by decide +kernel
    have hf := key _ h
    have hc : checkMaterial (.str grade) = .ok () := by
      unfold checkMaterial
      rw [if_pos]
      exact List.mem_map.mpr ⟨_, h, rfl⟩
    have hr : materialRow (.str grade) = .ok (grade, grp, e, d, p) := by
      unfold materialRow
      simp only at hf ⊢
      rw [hf]
    simp only [elasticModulus, density, poisson, hc, hr, ok_bind, and_self]
  · intro m h
    have hc : checkMaterial m = .error (.valueError ("Material " ++ m.toStr ++ " not found")) := by
      unfold checkMaterial
      rw [if_neg]
      intro hm
      obtain ⟨r, hr, hrm⟩ := List.mem_map.mp hm
      exact h r hr hrm
    simp only [elasticModulus, density, poisson, hc, err_bind]
    exact ⟨⟨_, rfl⟩, ⟨_, rfl⟩, ⟨_, rfl⟩⟩

/-- C41, the remaining case exactly: every object that is not a string but prints as a listed grade passes the check
and then raises IndexError. -/
theorem C41_not_string {s : String} (h : ∃ r ∈ Data.materialRows, r.1 = s) :
    elasticModulus reg (.other s) = .error .indexError ∧ density reg (.other s) = .error .indexError ∧
    poisson (.other s) = .error .indexError := by
  have hc : checkMaterial (.other s) = .ok () := by
    unfold checkMaterial
    rw [if_pos]
    obtain ⟨r, hr, rfl⟩ := h
    exact List.mem_map.mpr ⟨r, hr, rfl⟩
  have hr : materialRow (.other s) = .error .indexError := by
    unfold materialRow
    simp only [List.filter_false]
  simp only [elasticModulus, density, poisson, hc, hr, ok_bind, err_bind, and_self]

/-- C41 is false for materials that are not strings: the integer 304 passes the check and then raises
IndexError instead of returning a value or raising ValueError. -/
theorem C41_violated :
    elasticModulus reg (.other "304") = .error .indexError ∧
    density reg (.other "304") = .error .indexError ∧
    poisson (.other "304") = .error .indexError := by
  have hc : checkMaterial (.other "304") = .ok () := by
    unfold checkMaterial
    rw [if_pos]
    decide
  have hr : materialRow (.other "304") = .error .indexError := by
    unfold materialRow
    simp only [List.filter_false]
  simp only [elasticModulus, density, poisson, hc, hr, ok_bind, err_bind, and_self]

end Pypbomb.Tube
