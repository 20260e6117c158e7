/-
The repository's own unit tests (pypbomb/tests/test_units.py, test_tube.py), run against the model.

These are tests, not properties: each theorem replays one test function of the repository on the model,
with the test's own literals and tolerances.  They are evidence that the model computes what the authors
expect of the code.  Tests of calculations that need a chemistry library are not replayed (the gas is a
parameter of the model).
-/
import Verif.Props.Units
import Verif.Props.Window
import Verif.Props.DDT
import Verif.Props.Bolt
import Verif.Props.TubeTables
import Verif.Props.Tube
import Verif.Props.Flange
import Verif.Props.Materials
import Verif.Props.Import
import Mathlib.Analysis.Real.Pi.Bounds

namespace Pypbomb.Conformance
open Quantity

variable {reg : Registry}

/-- `abs(test - good) / good < tol`, the comparison used by the tests (`compare`, test_tube.py:16-25). -/
def Within (tol test good : ℝ) : Prop := |test - good| / good < tol

theorem within_of {tol lo hi x good : ℝ} (g0 : 0 < good) (h1 : lo ≤ x) (h2 : x ≤ hi)
    (hl : good - tol * good < lo) (hh : hi < good + tol * good) : Within tol x good := by
  unfold Within
  rw [div_lt_iff₀ g0, abs_lt]
  constructor <;> linarith

/-! ### test_units.py -/

/-- `test_good_input`. -/
theorem units_good_input :
    checkPintQuantity (.quantity (.num 6.3) PUnit.inch 0) "length" false = .ok true ∧
    checkPintQuantity (.quantity (.num (-8)) PUnit.inch 0) "length" false = .ok true := by
  constructor <;> rfl

/-- `test_bad_dimension_type`. -/
theorem units_bad_dimension_type :
    checkPintQuantity (.quantity (.num 3) PUnit.degC 0) "walrus" false =
      .error (.valueError "walrus not a supported dimension type") := rfl

/-- `test_non_pint_quantity`. -/
theorem units_non_pint :
    checkPintQuantity .plain "length" false = .error (.valueError "Non-pint quantity") := rfl

/-- `test_non_numeric_quantity`. -/
theorem units_non_numeric :
    checkPintQuantity (.quantity (.text none) PUnit.inch 0) "length" false =
      .error (.valueError "Non-numeric pint quantity") := rfl

/-- `test_ensure_positive_with_negative_magnitude`. -/
theorem units_negative :
    checkPintQuantity (.quantity (.num (-4)) PUnit.inch 0) "length" true =
      .error (.valueError "Input value < 0") := by
  have : (-4 : ℝ) * PUnit.inch.scale + PUnit.inch.offset < 0 := by norm_num [PUnit.inch]
  show (if (true = true ∧ (-4 : ℝ) * PUnit.inch.scale + PUnit.inch.offset < 0) then _ else _) = _
  rw [if_pos ⟨rfl, this⟩]

/-- `test_incorrect_dimensionality`. -/
theorem units_wrong_dimension :
    checkPintQuantity (.quantity (.num 19.2) PUnit.degC 0) "length" false =
      .error (.valueError "temperature is not length") := by
  have h : dimMessage Dim.temperature Dim.length = "temperature is not length" := by decide +kernel
  rw [← h]
  rfl

/-- `test_magnitude`, `test_units`, `test_unit_registry`. -/
theorem units_parse_pair (h : reg.parse "degree_Celsius" = some PUnit.degC) :
    parseQuantInput (.seq [.num 700, .str "degree_Celsius" none]) reg =
      .ok (.quantity (.num 700) PUnit.degC reg.id) := by
  simp [parseQuantInput, Registry.quantity, h]

/-- `test_pass_quantity`. -/
theorem units_pass_quantity :
    parseQuantInput (.quantity (.num 9) PUnit.degC reg.id) reg =
      .ok (.quantity (.num 9) PUnit.degC reg.id) := rfl

/-- `test_change_registry`: adding a quantity of one registry to one of another is refused. -/
theorem units_change_registry (h : reg.id ≠ 0) :
    ∃ q, parseQ (.quantity ⟨9, PUnit.degC, 0⟩) reg = .ok q ∧
      q.add ⟨9, PUnit.degC, 0⟩ = .error .registryMismatch := by
  refine ⟨_, rfl, ?_⟩
  simp [Quantity.add, Quantity.sameReg, h]

/-- `test_bad_input`: `(0, "psi", "lol")`, `(0,)`, `"neat"`. -/
theorem units_bad_input :
    IsValueError (parseQuantInput (.seq [.num 0, .str "psi" none, .str "lol" none]) reg) ∧
    IsValueError (parseQuantInput (.seq [.num 0]) reg) ∧
    IsValueError (parseQuantInput (.seq [.str "n" none, .str "e" none, .str "a" none, .str "t" none]) reg) :=
  ⟨⟨_, rfl⟩, ⟨_, rfl⟩, ⟨_, rfl⟩⟩

/-! ### TestBolt -/

open Bolt in
/-- The 1/4-28 class 2 thread used by the tests. -/
def t1428 : Thread := ⟨2500, 2490, 2225, 2200, 2311, 28⟩

set_option maxRecDepth 100000 in
open Bolt in
theorem t1428_tabulated : Tabulated "1/4-28" "2" t1428 :=
  ⟨⟨2425, 2258, 2052, by decide +kernel⟩, ⟨2500, 2110, 2268, 2500, by decide +kernel⟩,
    by decide +kernel⟩

open Bolt in
theorem t1428_areas : (0.1867 < t1428.shear 0.5 ∧
    (0.034934 < t1428.tensile 120000 ∧ t1428.tensile 120000 < 0.0349342) ∧
    (0.036374 < t1428.tensile 80000 ∧ t1428.tensile 80000 < 0.0363742) ∧
    (0.308743 < t1428.plate 0.5 ∧ t1428.plate 0.5 < 0.308745)) := by
  have h1 := Real.pi_gt_d6
  have h2 := Real.pi_lt_d6
  norm_num [Thread.shear, Thread.tensile, Thread.plate, t1428]
  refine ⟨?_, ⟨?_, ?_⟩, ⟨?_, ?_⟩, ?_, ?_⟩ <;> norm_num at h1 h2 ⊢ <;> linarith

open Bolt in
theorem t1428_engagement {T k lo hi : ℝ} (h1 : lo * t1428.plate 0.5 < k * T) (h2 : k * T < hi * t1428.plate 0.5) :
    lo ≤ 2 * T * k / t1428.plate 1 ∧ 2 * T * k / t1428.plate 1 ≤ hi := by
  have e : t1428.plate 0.5 = 0.5 * t1428.plate 1 := by rw [← Thread.plate_scale, mul_one]
  have p0 : 0 < t1428.plate 1 := t1428_tabulated.sound.plate_pos one_pos
  rw [e] at h1 h2
  rw [le_div_iff₀ p0, div_le_iff₀ p0]
  norm_num at h1 h2
  constructor <;> linarith

open Bolt in
/-- `test_calculate_stress_areas_over_100ksi`: screw area, plate area (square inches) and minimum
engagement (inches) within 1e-4 of the hand calculation. -/
theorem bolt_areas_over_100ksi :
    ∃ (a : Areas) (s p m : ℝ), stressAreas reg "1/4-28" "2" (.quantity ⟨120, PUnit.ksi, 0⟩)
        (.quantity ⟨30, PUnit.ksi, 0⟩) (.quantity ⟨0.5, PUnit.inch, 0⟩) = .ok a ∧
      IsSqInch a.screw s ∧ Within 0.0001 s 0.034934049 ∧
      IsSqInch a.plate p ∧ Within 0.0001 p 0.308744082 ∧
      IsInch a.minEngagement m ∧ Within 0.0001 m 0.452595544 := by
  obtain ⟨h1, ⟨h2, h3⟩, -, h6, h7⟩ := t1428_areas
  obtain ⟨a, e, v1, v2, v3, -⟩ := areas_spec (reg := reg) t1428_tabulated
    (qb := ⟨120, PUnit.ksi, 0⟩) (sb := 120000) (qp := ⟨30, PUnit.ksi, 0⟩) (sp := 30000)
    (qL := ⟨0.5, PUnit.inch, 0⟩) (L := 0.5)
    ⟨0, rfl, rfl, by norm_num [PUnit.ksi, psiPa], rfl⟩ ⟨0, rfl, rfl, by norm_num [PUnit.ksi, psiPa], rfl⟩
    ⟨0, rfl, rfl, by norm_num [PUnit.inch], rfl⟩ (by norm_num) (by norm_num) (by norm_num)
  rw [min_eq_right (by linarith)] at v2
  refine ⟨a, _, _, _, e, ⟨_, v2⟩, ?_, ⟨_, v1⟩, ?_, ⟨_, v3⟩, ?_⟩
  · exact within_of (by norm_num) h2.le h3.le (by norm_num) (by norm_num)
  · exact within_of (by norm_num) h6.le h7.le (by norm_num) (by norm_num)
  · obtain ⟨b1, b2⟩ := t1428_engagement (T := t1428.tensile 120000) (k := 120000 / 30000) (lo := 0.45258)
      (hi := 0.45261) (by norm_num at *; linarith) (by norm_num at *; linarith)
    exact within_of (by norm_num) b1 b2 (by norm_num) (by norm_num)

open Bolt in
/-- `test_calculate_stress_areas_under_100ksi`. -/
theorem bolt_areas_under_100ksi :
    ∃ (a : Areas) (s m : ℝ), stressAreas reg "1/4-28" "2" (.quantity ⟨80, PUnit.ksi, 0⟩)
        (.quantity ⟨30, PUnit.ksi, 0⟩) (.quantity ⟨0.5, PUnit.inch, 0⟩) = .ok a ∧
      IsSqInch a.screw s ∧ Within 0.0001 s 0.036374073 ∧
      IsInch a.minEngagement m ∧ Within 0.0001 m 0.314168053 := by
  obtain ⟨h1, -, ⟨h2, h3⟩, h6, h7⟩ := t1428_areas
  obtain ⟨a, e, v1, v2, v3, -⟩ := areas_spec (reg := reg) t1428_tabulated
    (qb := ⟨80, PUnit.ksi, 0⟩) (sb := 80000) (qp := ⟨30, PUnit.ksi, 0⟩) (sp := 30000)
    (qL := ⟨0.5, PUnit.inch, 0⟩) (L := 0.5)
    ⟨0, rfl, rfl, by norm_num [PUnit.ksi, psiPa], rfl⟩ ⟨0, rfl, rfl, by norm_num [PUnit.ksi, psiPa], rfl⟩
    ⟨0, rfl, rfl, by norm_num [PUnit.inch], rfl⟩ (by norm_num) (by norm_num) (by norm_num)
  rw [min_eq_right (by linarith)] at v2
  refine ⟨a, _, _, e, ⟨_, v2⟩, ?_, ⟨_, v3⟩, ?_⟩
  · exact within_of (by norm_num) h2.le h3.le (by norm_num) (by norm_num)
  · obtain ⟨b1, b2⟩ := t1428_engagement (T := t1428.tensile 80000) (k := 80000 / 30000) (lo := 0.31415)
      (hi := 0.31418) (by norm_num at *; linarith) (by norm_num at *; linarith)
    exact within_of (by norm_num) b1 b2 (by norm_num) (by norm_num)

open Bolt in
/-- `test_calculate_stress_areas_length_too_short`: the warning is issued at 0.05 inch. -/
theorem bolt_length_too_short :
    ∃ a : Areas, stressAreas reg "1/4-28" "2" (.quantity ⟨80, PUnit.ksi, 0⟩)
        (.quantity ⟨30, PUnit.ksi, 0⟩) (.quantity ⟨0.05, PUnit.inch, 0⟩) = .ok a ∧ a.warned = true := by
  obtain ⟨-, -, ⟨h2, h3⟩, h6, h7⟩ := t1428_areas
  obtain ⟨a, e, -, -, -, hw⟩ := areas_spec (reg := reg) t1428_tabulated
    (qb := ⟨80, PUnit.ksi, 0⟩) (sb := 80000) (qp := ⟨30, PUnit.ksi, 0⟩) (sp := 30000)
    (qL := ⟨0.05, PUnit.inch, 0⟩) (L := 0.05)
    ⟨0, rfl, rfl, by norm_num [PUnit.ksi, psiPa], rfl⟩ ⟨0, rfl, rfl, by norm_num [PUnit.ksi, psiPa], rfl⟩
    ⟨0, rfl, rfl, by norm_num [PUnit.inch], rfl⟩ (by norm_num) (by norm_num) (by norm_num)
  refine ⟨a, e, hw.mpr (lt_trans ?_ h2)⟩
  have := Real.pi_lt_d6
  norm_num [Thread.shear, t1428] at this ⊢
  linarith

open Bolt in
/-- `test_calculate_sf` (the plate strength is passed as the pair `(30, "ksi")`). -/
theorem bolt_safety_factors (hk : reg.parse "ksi" = some PUnit.ksi) :
    ∃ b p, safetyFactors reg (.quantity ⟨1631.7, PUnit.psi, 0⟩)
        (.quantity ⟨5.75 * 2.5, PUnit.inch.pow 2, 0⟩) 20 "1/4-28" "2" (.quantity ⟨120, PUnit.ksi, 0⟩)
        (.pair 30 "ksi") (.quantity ⟨0.5, PUnit.inch, 0⟩) = .ok (b, p) ∧
      Within 0.0001 b 3.606968028 ∧ Within 0.0001 p 7.969517321 := by
  obtain ⟨h1, ⟨h2, h3⟩, -, h6, h7⟩ := t1428_areas
  refine ⟨_, _, C24_safety_factors t1428_tabulated (P := 1631.7 * psiPa) (A := 5.75 * 2.5 * 0.0254 ^ 2)
    (sb := 120000) (sp := 30000) (L := 0.5)
    ⟨⟨rfl, by norm_num [PUnit.psi, psiPa]⟩, rfl⟩
    ⟨⟨by show Dim.length.pow 2 = Dim.area; dims, by norm_num [PUnit.pow, PUnit.inch]⟩, rfl⟩
    ⟨⟨rfl, by norm_num [PUnit.ksi, psiPa]⟩, rfl⟩
    ⟨⟨PUnit.ksi, hk, rfl, by norm_num [PUnit.ksi, psiPa]⟩, fun u h => by rw [hk] at h; cases h; rfl⟩
    ⟨⟨rfl, by norm_num [PUnit.inch]⟩, rfl⟩ (by norm_num [psiPa]) (by norm_num [psiPa]) (by norm_num)
    (by norm_num) (by norm_num) (by norm_num) (by norm_num), ?_, ?_⟩
  · rw [min_eq_right (by linarith)]
    set T := t1428.tensile 120000
    apply within_of (lo := 3.60695) (hi := 3.607)
    all_goals norm_num [psiPa] at *
    all_goals linarith
  · set T := t1428.plate 0.5
    apply within_of (lo := 7.9694) (hi := 7.9696)
    all_goals norm_num [psiPa] at *
    all_goals linarith

open Bolt in
theorem class_B : LooksInternal "2B" := by
  refine ⟨?_, by decide +kernel, Or.inl (by decide +kernel)⟩
  intro h
  have : pyIn "A" "2B" = false := by decide +kernel
  exact absurd h.1 (by rw [this]; simp)

open Bolt in
theorem class_A : LooksExternal "2A" := ⟨by decide +kernel, Or.inl (by decide +kernel)⟩

set_option maxRecDepth 100000 in
open Bolt in
/-- `test_get_thread_property`. -/
theorem bolt_thread_property :
    getThreadProperty reg "pitch diameter max" "1/4-20" "2B" = .ok [⟨0.2248, PUnit.inch, reg.id⟩] ∧
    getThreadProperty reg "pitch diameter max" "1/4-20" "2A" = .ok [⟨0.2164, PUnit.inch, reg.id⟩] := by
  have i1 : internal.cells "pitch diameter max" "1/4-20" "2B" = [2248] := by decide +kernel
  have e1 : external.cells "pitch diameter max" "1/4-20" "2A" = [2164] := by decide +kernel
  have i2 : ¬ "pitch diameter max" ∉ internal.cols := by decide +kernel
  have e2 : ¬ "pitch diameter max" ∉ external.cols := by decide +kernel
  have i3 : ¬ "1/4-20" ∉ internal.rows.map (·.1) := by decide +kernel
  have e3 : ¬ "1/4-20" ∉ external.rows.map (·.1) := by decide +kernel
  constructor
  · rw [getThreadProperty_int class_B, fromTable, if_neg i2, if_neg i3, i1]
    norm_num
  · rw [getThreadProperty_ext class_A, fromTable, if_neg e2, if_neg e3, e1]
    norm_num

open Bolt in
/-- `test_get_thread_property_not_in_dataframe`. -/
theorem bolt_unknown_property :
    ∃ m, getThreadProperty reg "jello" "1/4-20" "2B" = .error (.keyError m) :=
  C25_unknown_keyError (Or.inr class_B) (Or.inl ⟨by decide +kernel, by decide +kernel⟩)

open Bolt in
/-- `test_get_thread_property_invalid_class`: "2F" and "6A". -/
theorem bolt_invalid_class :
    getThreadProperty reg "pitch diameter max" "1/4-20" "2F" = .error (.valueError "\nbad thread class") ∧
    getThreadProperty reg "pitch diameter max" "1/4-20" "6A" = .error (.valueError "\nbad thread class") := by
  have h1 : pyIn "A" "2F" = false := by decide +kernel
  have h2 : pyIn "B" "2F" = false := by decide +kernel
  have h3 : pyIn "2" "6A" = false := by decide +kernel
  have h4 : pyIn "3" "6A" = false := by decide +kernel
  constructor
  · simp only [getThreadProperty, h1, h2, Bool.false_and, Bool.false_eq_true, if_false, err_bind]
  · simp only [getThreadProperty, h3, h4, Bool.or_false, Bool.and_false, Bool.false_eq_true, if_false,
      err_bind]

set_option maxRecDepth 100000 in
open Bolt in
/-- `test_get_thread_property_invalid_size`. -/
theorem bolt_invalid_size :
    getThreadProperty reg "pitch diameter max" "1290-33" "2B" =
      .error (.keyError "\nThread size '1290-33' not found") := by
  have i2 : ¬ "pitch diameter max" ∉ internal.cols := by decide +kernel
  have i3 : "1290-33" ∉ internal.rows.map (·.1) := by decide +kernel
  rw [getThreadProperty_int class_B, fromTable, if_neg i2, if_pos i3]
  congr 2

set_option maxRecDepth 100000 in
open Bolt in
/-- `test_import_thread_specs`: pitch diameter max of 0-80, classes 2A, 3A, 2B, 3B. -/
theorem bolt_thread_specs :
    external.get "pitch diameter max" "0-80" "2A" = .ok 0.0514 ∧
    external.get "pitch diameter max" "0-80" "3A" = .ok 0.0519 ∧
    internal.get "pitch diameter max" "0-80" "2B" = .ok 0.0542 ∧
    internal.get "pitch diameter max" "0-80" "3B" = .ok 0.0536 := by
  have h1 : external.cells "pitch diameter max" "0-80" "2A" = [514] := by decide +kernel
  have h2 : external.cells "pitch diameter max" "0-80" "3A" = [519] := by decide +kernel
  have h3 : internal.cells "pitch diameter max" "0-80" "2B" = [542] := by decide +kernel
  have h4 : internal.cells "pitch diameter max" "0-80" "3B" = [536] := by decide +kernel
  refine ⟨?_, ?_, ?_, ?_⟩ <;> simp only [Table.get, h1, h2, h3, h4] <;> norm_num

/-! ### TestDDT (geometry) -/

/-- `test_calculate_spiral_diameter`: `diameter / 2 * (1 - sqrt(1 - 0.44))`. -/
theorem ddt_spiral_diameter :
    ∃ q, DDT.blockageDiameter reg (.quantity ⟨5.76, PUnit.inch, 0⟩) (.num 0.44) = .ok q ∧
      q.unit = PUnit.inch ∧ q.mag = 5.76 / 2 * (1 - Real.sqrt (1 - 0.44)) := by
  obtain ⟨q, e, hu, hv⟩ := DDT.blockageDiameter_eval (reg := reg) (x := .quantity ⟨5.76, PUnit.inch, 0⟩)
    (D := 5.76 * 0.0254) (n := .num 0.44) (br := 0.44) (u := PUnit.inch)
    ⟨⟨rfl, by norm_num [PUnit.inch]⟩, rfl⟩ rfl rfl (by norm_num) (by norm_num) (by norm_num)
  refine ⟨q, e, hu, ?_⟩
  have := hv.val
  rw [hu] at this
  simp only [PUnit.inch] at this
  norm_num at this ⊢
  linarith

/-- `test_calculate_spiral_diameter_non_numeric_br`, `test_calculate_spiral_diameter_bad_br`. -/
theorem ddt_spiral_bad :
    IsValueError (DDT.blockageDiameter reg (.quantity ⟨5.76, PUnit.inch, 0⟩) (.str none)) ∧
    ∀ br ∈ [(-35.124 : ℝ), 0, 1, 120.34],
      IsValueError (DDT.blockageDiameter reg (.quantity ⟨5.76, PUnit.inch, 0⟩) (.num br)) := by
  refine ⟨(DDT.C09_diameter_strings _ 0).2.1, fun br h => (DDT.C09_diameter_strings _ br).2.2 ?_⟩
  simp only [List.mem_cons, List.not_mem_nil, or_false] at h
  rcases h with rfl | rfl | rfl | rfl <;> norm_num

/-- `test_calculate_blockage_ratio` (the test compares without `abs`; here both sides). -/
theorem ddt_blockage_ratio :
    ∃ br, DDT.blockageRatio reg (.quantity ⟨3.438, PUnit.inch, 0⟩) (.quantity ⟨7 / 16, PUnit.inch, 0⟩) = .ok br ∧
      |br - 0.444242326717679| < 0.00000001 := by
  refine ⟨_, DDT.blockageRatio_eval (D := 3.438 * 0.0254) (d := 7 / 16 * 0.0254)
    ⟨rfl, by norm_num [PUnit.inch]⟩ ⟨rfl, by norm_num [PUnit.inch]⟩ (by norm_num) (by norm_num), ?_⟩
  rw [abs_lt]
  constructor <;> norm_num

/-- `test_calculate_blockage_ratio_0_tube_diameter`, `test_calculate_blockage_ratio_blockage_gt_tube`. -/
theorem ddt_blockage_ratio_bad :
    IsValueError (DDT.blockageRatio reg (.quantity ⟨0, PUnit.inch, 0⟩) (.quantity ⟨7 / 16, PUnit.inch, 0⟩)) ∧
    IsValueError (DDT.blockageRatio reg (.quantity ⟨1, PUnit.inch, 0⟩) (.quantity ⟨3, PUnit.inch, 0⟩)) := by
  constructor
  · exact DDT.C08_ratio_value_error (D := 0) (d := 7 / 16 * 0.0254)
      ⟨rfl, by norm_num [PUnit.inch]⟩ ⟨rfl, by norm_num [PUnit.inch]⟩ (by norm_num)
  · exact DDT.C08_ratio_value_error (D := 0.0254) (d := 3 * 0.0254)
      ⟨rfl, by norm_num [PUnit.inch]⟩ ⟨rfl, by norm_num [PUnit.inch]⟩ (by norm_num)

/-- `test_calculate_ddt_run_up_bad_blockage_ratio`, with every chemistry. -/
theorem ddt_run_up_bad (ct : Cantera) (species : ct.Species) (mech phase : String) (xD xT xP : QIn) :
    ∀ br ∈ [(-4 : ℝ), 0, 1], IsValueError (DDT.runUp ct reg (.num br) xD xT xP species mech phase) := by
  intro br h
  refine (DDT.C10_run_up_range ct species mech phase br xD xT xP).1 ?_
  simp only [List.mem_cons, List.not_mem_nil, or_false] at h
  rcases h with rfl | rfl | rfl <;> norm_num

/-! ### TestWindow -/

/-- The window of the tests, whatever units its dimensions are converted to: 50 x 20 mm, 1.2 mm thick,
1 atm, 5300 psi. -/
structure TestWindow (reg : Registry) (xL xW xT xP xM : QIn) : Prop where
  L : Denotes reg xL Dim.length 0.02
  W : Denotes reg xW Dim.length 0.05
  t : Denotes reg xT Dim.length 0.0012
  P : Denotes reg xP Dim.pressure 101325
  M : Denotes reg xM Dim.pressure (5300 * psiPa)

/-- `test_safety_factor`. -/
theorem window_safety_factor {xL xW xT xP xM : QIn} (h : TestWindow reg xL xW xT xP xM) :
    ∃ sf, Window.safetyFactor reg xL xW xT xP xM = .ok sf ∧ |sf - 4| / sf < 0.01 := by
  refine ⟨_, Window.C16_safety_factor_form h.L h.W h.t h.P h.M (by norm_num) (by norm_num) (by norm_num)
    (by norm_num) (by norm_num [psiPa]), ?_⟩
  rw [div_lt_iff₀ (by norm_num [psiPa]), abs_lt]
  constructor <;> norm_num [psiPa]

/-- `test_minimum_thickness_sf_less_than_1`, `test_minimum_thickness_sf_non_numeric`. -/
theorem window_bad_factor {xL xW xT xP xM : QIn} (h : TestWindow reg xL xW xT xP xM) :
    IsValueError (Window.minimumThickness reg xL xW (.num 0.25) xP xM) ∧
    IsValueError (Window.minimumThickness reg xL xW (.num (-7)) xP xM) ∧
    ∃ m, Window.minimumThickness reg xL xW (.str none) xP xM = .error (.typeError m) := by
  have := Window.C18_minimum_thickness_errors h.L h.W h.P h.M (by norm_num) (by norm_num) (by norm_num)
    (by norm_num [psiPa])
  exact ⟨this.1 _ (by norm_num), this.1 _ (by norm_num), this.2 _ (by simp)⟩

/-- `test_minimum_thickness`. -/
theorem window_minimum_thickness {xL xW xT xP xM : QIn} (h : TestWindow reg xL xW xT xP xM) :
    ∃ T, Window.minimumThickness reg xL xW (.num 4) xP xM = .ok T ∧ T.unit.dim = Dim.length ∧
      |T.phys - 0.0012| / T.phys < 0.01 := by
  obtain ⟨T, e, hu, hv⟩ := Window.minimumThickness_eval h.L h.W h.P h.M (by norm_num) (by norm_num)
    (by norm_num) (by norm_num [psiPa]) (sf := 4) (by norm_num)
  refine ⟨T, e, hv.dim, ?_⟩
  rw [hv.phys]
  set a := Real.sqrt (4 * 0.75 / 2) * 0.02 * Real.sqrt (101325 / (5300 * psiPa * (1 + (0.02 / 0.05) ^ 2)))
  have ha : 0 ≤ a := by positivity
  have h2 : a ^ 2 = (4 * 0.75 / 2) * 0.02 ^ 2 * (101325 / (5300 * psiPa * (1 + (0.02 / 0.05) ^ 2))) := by
    simp only [a, mul_pow]
    rw [Real.sq_sqrt (by norm_num), Real.sq_sqrt (by norm_num [psiPa])]
  norm_num [psiPa] at h2
  have b1 : 0.00119 < a := by
    norm_num
    nlinarith
  have b2 : a < 0.00121 := by
    norm_num
    nlinarith
  norm_num at b1 b2
  rw [div_lt_iff₀ (by linarith), abs_lt]
  norm_num
  constructor <;> linarith

/-! ### TestTube -/

/-- The welded and seamless stresses of 316 expected by `test__get_pipe_stress_limits`, in 0.1 ksi. -/
def welded316 : List ℕ := [160, 160, 138, 124, 114, 106, 101, 98, 96, 95, 94, 93, 92, 91, 90, 89, 88, 79, 63]
def seamless316 : List ℕ :=
  [188, 188, 162, 146, 134, 125, 118, 116, 113, 112, 110, 109, 108, 107, 106, 105, 103, 93, 74]

/-- `test__get_pipe_stress_limits`. -/
theorem tube_stress_limits (welded : Bool) :
    ∃ pts, Tube.stressLimits "316" welded = .ok pts ∧
      pts.map (·.2) = (if welded then welded316 else seamless316).map fun n : ℕ => (n : ℝ) / 10 := by
  have hi : (Tube.stressCols welded)[2]? = some "316" := by cases welded <;> decide +kernel
  refine ⟨_, Tube.stressLimits_eq hi, ?_⟩
  have h : (Tube.stressRows welded).map (fun r => r.2.getD 2 0) = (if welded then welded316 else seamless316) := by
    cases welded <;> decide +kernel
  rw [← h]
  simp [Tube.points]

/-- The tube of the load factor tests: 5.761 and 6.625 in, 200 GPa, 7.9 g/cm³. -/
theorem dlfArgs (v : ℝ) : Tube.DlfArgs ⟨5.761, PUnit.inch, 0⟩ ⟨6.625, PUnit.inch, 0⟩
    ⟨v, PUnit.meterPerSecond, 0⟩ ⟨200, PUnit.gigapascal, 0⟩ ⟨7.9, PUnit.gramPerCC, 0⟩
    (5.761 * 0.0254) (6.625 * 0.0254) v (200 * 10 ^ 9) 7900 0.28 0 0 := by
  refine ⟨⟨rfl, rfl, ?_, rfl⟩, ⟨rfl, rfl, ?_, rfl⟩, ⟨rfl, rfl, ?_, rfl⟩, ⟨rfl, rfl, ?_, rfl⟩,
    ⟨rfl, rfl, ?_, rfl⟩, ?_, ?_, ?_, ?_, ?_, ?_⟩ <;>
  norm_num [PUnit.inch, PUnit.meterPerSecond, PUnit.base, PUnit.gigapascal, PUnit.gramPerCC]

/-- The critical velocity of that tube: 1457.44 m/s ("from hand calcs"). -/
theorem tube_critical_velocity :
    1457.4 < Tube.Vcrit (5.761 * 0.0254) (6.625 * 0.0254) (200 * 10 ^ 9) 7900 0.28 ∧
    Tube.Vcrit (5.761 * 0.0254) (6.625 * 0.0254) (200 * 10 ^ 9) 7900 0.28 < 1457.45 := by
  have h := Tube.C32_Vcrit_fourth_power (i := 5.761 * 0.0254) (o := 6.625 * 0.0254) (E := 200 * 10 ^ 9)
    (rho := 7900) (nu := 0.28) (by norm_num)
  obtain ⟨h0, h4⟩ := h
  constructor
  · refine lt_of_pow_lt_pow_left₀ 4 h0 ?_
    rw [h4]
    norm_num
  · refine lt_of_pow_lt_pow_left₀ 4 (by norm_num) ?_
    rw [h4]
    norm_num

/-- `test_dynamic_load_factor`. -/
theorem tube_dynamic_load_factor :
    ∀ c ∈ [((1200 : ℝ), (1 : ℝ)), (1311, 1), (1312, 4), (1400, 4), (1603, 4), (1604, 2), (2000, 2)],
      Tube.dynamicLoadFactor (.quantity ⟨5.761, PUnit.inch, 0⟩) (.quantity ⟨6.625, PUnit.inch, 0⟩)
        (.quantity ⟨c.1, PUnit.meterPerSecond, 0⟩) (.quantity ⟨200, PUnit.gigapascal, 0⟩)
        (.quantity ⟨7.9, PUnit.gramPerCC, 0⟩) 0.28 0.1 = .ok c.2 := by
  intro c hc
  obtain ⟨h1, h2⟩ := tube_critical_velocity
  obtain ⟨f, e, f1, f2, f4, -⟩ := Tube.C32_classification (dlfArgs c.1) (pm := 0.1) (by norm_num)
  rw [e]
  set V := Tube.Vcrit (5.761 * 0.0254) (6.625 * 0.0254) (200 * 10 ^ 9) 7900 0.28
  simp only [List.mem_cons, List.not_mem_nil, or_false] at hc
  congr 1
  rcases hc with rfl | rfl | rfl | rfl | rfl | rfl | rfl
  · exact f1.mpr (by norm_num at *; linarith)
  · exact f1.mpr (by norm_num at *; linarith)
  · exact f4.mpr (by norm_num at *; constructor <;> linarith)
  · exact f4.mpr (by norm_num at *; constructor <;> linarith)
  · exact f4.mpr (by norm_num at *; constructor <;> linarith)
  · exact f2.mpr (by norm_num at *; linarith)
  · exact f2.mpr (by norm_num at *; linarith)

/-- `test_dynamic_load_factor_bad_plus_minus_value`. -/
theorem tube_bad_plus_minus :
    ∀ pm ∈ [(-1 : ℝ), 0, 1, 2], IsValueError (Tube.dynamicLoadFactor (.quantity ⟨5.761, PUnit.inch, 0⟩)
      (.quantity ⟨6.625, PUnit.inch, 0⟩) (.quantity ⟨2, PUnit.meterPerSecond, 0⟩)
      (.quantity ⟨200, PUnit.gigapascal, 0⟩) (.quantity ⟨7.9, PUnit.gramPerCC, 0⟩) 0.28 pm) := by
  intro pm h
  refine Tube.C33_bad_tolerance (dlfArgs 2) ?_
  simp only [List.mem_cons, List.not_mem_nil, or_false] at h
  rcases h with rfl | rfl | rfl | rfl <;> norm_num

set_option maxRecDepth 100000 in
/-- `test_get_available_pipe_schedules`, `test_get_available_pipe_schedules_bad_size`. -/
theorem tube_pipe_schedules :
    Tube.availableSchedules "8" = .ok ["5s", "5", "10s", "10", "20", "30", "40s", "40", "60", "80s", "80",
      "100", "120", "140", "160", "XXH"] ∧
    Tube.availableSchedules "26" = .ok ["10", "20", "40s", "80s"] ∧
    IsValueError (Tube.availableSchedules "2.222") :=
  ⟨by decide +kernel, by decide +kernel, ⟨Tube.sizeMessage "2.222", by decide +kernel⟩⟩

theorem dimensions_of {size schedule : String} {od w : ℕ} {av : List String}
    (h1 : Tube.availableSchedules size = .ok av) (h2 : ¬ schedule ∉ av)
    (h3 : (Tube.pipeRow size).bind (fun c => ((Data.pipeCols.zip c).lookup "OD").join) = some od)
    (h4 : (Tube.pipeRow size).bind (fun c => ((Data.pipeCols.zip c).lookup schedule).join) = some w) :
    Tube.dimensions reg size schedule = .ok ⟨⟨(od : ℝ) / 1000 - 2 * ((w : ℝ) / 1000), PUnit.inch, reg.id⟩,
        ⟨(od : ℝ) / 1000, PUnit.inch, reg.id⟩, ⟨(w : ℝ) / 1000, PUnit.inch, reg.id⟩⟩ := by
  simp only [Tube.dimensions, h1, ok_bind]
  rw [if_neg h2]
  simp only [h3, h4]

set_option maxRecDepth 100000 in
/-- `test_get_dimensions`: NPS 9, schedules 40s and 80s. -/
theorem tube_dimensions :
    Tube.dimensions reg "9" "40s" = .ok ⟨⟨8.941, PUnit.inch, reg.id⟩, ⟨9.625, PUnit.inch, reg.id⟩,
      ⟨0.342, PUnit.inch, reg.id⟩⟩ ∧
    Tube.dimensions reg "9" "80s" = .ok ⟨⟨8.625, PUnit.inch, reg.id⟩, ⟨9.625, PUnit.inch, reg.id⟩,
      ⟨0.5, PUnit.inch, reg.id⟩⟩ := by
  have av : Tube.availableSchedules "9" = .ok ["40s", "80s"] := by decide +kernel
  constructor
  · rw [dimensions_of (od := 9625) (w := 342) av (by decide +kernel) (by decide +kernel) (by decide +kernel)]
    norm_num
  · rw [dimensions_of (od := 9625) (w := 500) av (by decide +kernel) (by decide +kernel) (by decide +kernel)]
    norm_num

set_option maxRecDepth 100000 in
/-- `test_get_dimensions_bad_schedule`: "20" for sizes 1/8 and 4 1/2. -/
theorem tube_dimensions_bad :
    IsValueError (Tube.dimensions reg "1/8" "20") ∧ IsValueError (Tube.dimensions reg "4 1/2" "20") := by
  have a1 : ∃ l, Tube.availableSchedules "1/8" = .ok l ∧ "20" ∉ l :=
    ⟨["5", "10s", "10", "40s", "40", "80s", "80"], by decide +kernel⟩
  have a2 : ∃ l, Tube.availableSchedules "4 1/2" = .ok l ∧ "20" ∉ l := ⟨["40s", "80s", "XXH"], by decide +kernel⟩
  obtain ⟨l1, e1, h1⟩ := a1
  obtain ⟨l2, e2, h2⟩ := a2
  refine ⟨⟨Tube.scheduleMessage "20" "1/8", ?_⟩, ⟨Tube.scheduleMessage "20" "4 1/2", ?_⟩⟩
  · simp only [Tube.dimensions, e1, ok_bind]
    rw [if_pos h1]
  · simp only [Tube.dimensions, e2, ok_bind]
    rw [if_pos h2]

theorem isDegF (t : ℝ) : Tube.IsDegF reg (.quantity ⟨t, PUnit.degF, 0⟩) t :=
  ⟨rfl, by simp only [PUnit.degF]; norm_num; ring⟩

/-- `test_calculate_max_stress_seamless`: 316L at 100, 200, 150 degF. -/
theorem tube_max_stress_seamless :
    ∀ c ∈ [((100 : ℝ), (15.7 : ℝ)), (200, 13.3), (150, 14.5)],
      Tube.maxStress reg (.quantity ⟨c.1, PUnit.degF, 0⟩) "316L" false = .ok ⟨c.2, PUnit.ksi, reg.id⟩ := by
  have hi : (Tube.stressCols false)[6]? = some "316L" := by decide +kernel
  have hr : Tube.stressRows false = (Tube.stressRows false).take 1 ++ ((100 : ℤ), (Tube.stressRows false)[1]!.2) ::
    ((200 : ℤ), (Tube.stressRows false)[2]!.2) :: (Tube.stressRows false).drop 3 := by decide +kernel
  have h1 : (Tube.stressRows false)[1]!.2[6]? = some 157 := by decide +kernel
  have h2 : (Tube.stressRows false)[2]!.2[6]? = some 133 := by decide +kernel
  intro c hc
  simp only [List.mem_cons, List.not_mem_nil, or_false] at hc
  rw [Tube.C29_interpolates (isDegF c.1) hi hr h1 h2]
  all_goals rcases hc with rfl | rfl | rfl <;> norm_num

/-- `test_calculate_max_stress_welded`: 304 at 650, 700, 675 degF. -/
theorem tube_max_stress_welded :
    ∀ c ∈ [((650 : ℝ), (9.5 : ℝ)), (700, 9.4), (675, 9.45)],
      Tube.maxStress reg (.quantity ⟨c.1, PUnit.degF, 0⟩) "304" true = .ok ⟨c.2, PUnit.ksi, reg.id⟩ := by
  have hi : (Tube.stressCols true)[0]? = some "304" := by decide +kernel
  have hr : Tube.stressRows true = (Tube.stressRows true).take 7 ++ ((650 : ℤ), (Tube.stressRows true)[7]!.2) ::
    ((700 : ℤ), (Tube.stressRows true)[8]!.2) :: (Tube.stressRows true).drop 9 := by decide +kernel
  have h1 : (Tube.stressRows true)[7]!.2[0]? = some 95 := by decide +kernel
  have h2 : (Tube.stressRows true)[8]!.2[0]? = some 94 := by decide +kernel
  intro c hc
  simp only [List.mem_cons, List.not_mem_nil, or_false] at hc
  rw [Tube.C29_interpolates (isDegF c.1) hi hr h1 h2]
  all_goals rcases hc with rfl | rfl | rfl <;> norm_num

/-- `test_get_elastic_modulus`, `test_get_density`, `test_get_poisson`, `test__check_material_good`,
`test__check_material_bad`. -/
theorem tube_materials :
    Tube.elasticModulus reg (.str "316L") = .ok ⟨200, PUnit.gigapascal, reg.id⟩ ∧
    Tube.density reg (.str "316L") = .ok ⟨7.9, PUnit.gramPerCC, reg.id⟩ ∧
    Tube.poisson (.str "316L") = .ok 0.28 ∧ Tube.checkMaterial (.str "304L") = .ok () ∧
    Tube.checkMaterial (.str "unobtainium") = .error (.valueError "Material unobtainium not found") := by
  have h1 : Tube.checkMaterial (.str "316L") = .ok () := by decide +kernel
  have h2 : Tube.materialRow (.str "316L") = .ok ("316L", "2.3", 200, 79, 28) := by decide +kernel
  refine ⟨?_, ?_, ?_, by decide +kernel, by decide +kernel⟩
  · simp [Tube.elasticModulus, h1, h2]
  · simp only [Tube.density, h1, h2, ok_bind]; norm_num
  · simp only [Tube.poisson, h1, h2, ok_bind]; norm_num

/-- `TestCollectTubeMaterials.test_good_output`: the rows of the material table (grade, group, GPa,
0.1 g/cm³, 0.01). -/
theorem tube_material_table : Data.materialRows =
    [("304", "2.1", 200, 78, 28), ("304H", "2.1", 200, 78, 28), ("316", "2.2", 200, 79, 28),
     ("316H", "2.2", 200, 79, 28), ("317", "2.2", 200, 79, 28), ("304L", "2.3", 200, 78, 28),
     ("316L", "2.3", 200, 79, 28)] := by decide +kernel

/-- `test_calculate_max_pressure`. -/
theorem tube_max_pressure :
    ∃ q, Tube.maxPressure ⟨6.625 - 2 * 0.432, PUnit.inch, 0⟩ ⟨6.625, PUnit.inch, 0⟩ ⟨18.8, PUnit.ksi, 0⟩ 4 = .ok q ∧
      q.phys = (18.8 * (1000 * psiPa)) * (2 * 0.432) / ((6.625 - 2 * 0.432 + 6.625) / 2 * 4) := by
  obtain ⟨q, e, -, -, h, -⟩ := Tube.C34_max_pressure (qi := ⟨6.625 - 2 * 0.432, PUnit.inch, 0⟩)
    (qo := ⟨6.625, PUnit.inch, 0⟩) (qs := ⟨18.8, PUnit.ksi, 0⟩) (i := 5.761 * 0.0254) (o := 6.625 * 0.0254)
    (s := 18.8 * (1000 * psiPa)) (sf := 4)
    ⟨rfl, rfl, by norm_num [PUnit.inch], rfl⟩ ⟨rfl, rfl, by norm_num [PUnit.inch], rfl⟩
    ⟨rfl, rfl, rfl, rfl⟩ (by norm_num) (by norm_num)
  refine ⟨q, e, ?_⟩
  rw [h]
  ring

/-! ### Flanges -/

/-- `TestCheckMaterial`. -/
theorem flange_check_material :
    Flange.checkMaterial (.str "316") = .ok () ∧
    Flange.checkMaterial (.str "unobtainium") =
      .error (.valueError "unobtainium not found in materials. Try Flange.available_materials") :=
  ⟨by decide +kernel, by decide +kernel⟩

/-- `TestCheckClass`: group 2.2 has a class 900 and no class 9001. -/
theorem flange_check_class :
    Flange.checkClass "900" ("2.2", Flange.frameOf (Data.group22Cols, Data.group22Rows)) = .ok () ∧
    Flange.checkClass "9001" ("2.2", Flange.frameOf (Data.group22Cols, Data.group22Rows)) =
      .error (.valueError "9001 not found in group 2.2.") := by
  have h1 : "900" ∈ "Temperature" :: Data.group22Cols := by decide +kernel
  have h2 : "9001" ∉ "Temperature" :: Data.group22Cols := by decide +kernel
  constructor
  · exact if_pos h1
  · exact if_neg h2

open Flange in
theorem curve304 (c : String) (i : ℕ) (h : Data.group21Cols[i]? = some c) :
    IsCurve "304" c (curveOf i Data.group21Rows) :=
  ⟨("304", "2.1", 200, 78, 28), by decide, rfl, ("2.1", Data.group21Cols, Data.group21Rows),
    by decide, rfl, i, h, rfl⟩

open Flange in
theorem curve316 (c : String) (i : ℕ) (h : Data.group22Cols[i]? = some c) :
    IsCurve "316" c (curveOf i Data.group22Rows) :=
  ⟨("316", "2.2", 200, 79, 28), by decide, rfl, ("2.2", Data.group22Cols, Data.group22Rows),
    by decide, rfl, i, h, rfl⟩

open Flange in
theorem isDegC (t : ℝ) : IsDegC reg (.quantity ⟨t, PUnit.degC, 0⟩) t :=
  ⟨rfl, by simp [PUnit.degC]⟩

open Flange in
theorem isBar (p : ℝ) : IsBar reg (.quantity ⟨p, PUnit.bar, 0⟩) p := ⟨rfl, by simp [PUnit.bar]⟩

open Flange in
/-- `test_get_max_pressure_good`: class 150, 304, at 200 degC (a quantity) and 225 degC (a pair). -/
theorem flange_max_pressure (h : reg.parse "degC" = some PUnit.degC) :
    (∃ q, getMaxPressure reg "150" (.quantity ⟨200, PUnit.degC, 0⟩) (.str "304") = .ok q ∧
      q.phys = 13.2 * 100000) ∧
    (∃ q, getMaxPressure reg "150" (.pair 225 "degC") (.str "304") = .ok q ∧ q.phys = 12.65 * 100000) := by
  have hm : (200, 13.2) ∈ curveOf 0 Data.group21Rows := by norm_num [curveOf, Data.group21Rows, cellBar]
  have ho : On (curveOf 0 Data.group21Rows) 225 12.65 := by
    refine ⟨curveOf 0 (Data.group21Rows.take 5), (200, 13.2), (250, 12.1),
      curveOf 0 (Data.group21Rows.drop 7), ?_, by norm_num, by norm_num, by norm_num⟩
    norm_num [curveOf, Data.group21Rows, cellBar]
  constructor
  · obtain ⟨q, e, hv⟩ := C45_at_table (curve304 "150" 0 rfl) hm (isDegC (reg := reg) 200)
    exact ⟨q, e, hv.phys⟩
  · obtain ⟨q, e, hv, -⟩ := C45_interpolates (u := reg) (x := .pair 225 "degC") (curve304 "150" 0 rfl)
      ⟨_, h, rfl, by norm_num [PUnit.degC]⟩ ho
    exact ⟨q, e, hv.phys⟩

open Flange in
/-- `test_get_max_pressure_bad_temperature`. -/
theorem flange_max_pressure_bad :
    IsValueError (getMaxPressure reg "150" (.quantity ⟨10000, PUnit.degC, 0⟩) (.str "316")) := by
  refine (C45_range (curve316 "150" 0 rfl) (isDegC 10000)).1 (Or.inl ?_)
  intro b hb
  obtain ⟨r, hr, rfl⟩ := List.mem_map.mp hb
  have : ∀ r ∈ Data.group22Rows, r.1 < 10000 := by decide +kernel
  have := this r hr
  simp only
  exact_mod_cast this

open Flange in
/-- `test_get_max_temperature_bad_pressure`. -/
theorem flange_max_temperature_bad :
    IsValueError (getMaxTemperature reg "150" (.quantity ⟨19.1, PUnit.bar, 0⟩) (.str "316")) := by
  refine C47_range (curve316 "150" 0 rfl) (isBar 19.1) (Or.inr ?_)
  intro b hb
  rw [curveOf_eq] at hb
  obtain ⟨a, ha, rfl⟩ := List.mem_map.mp hb
  have : ∀ a ∈ intCurve 0 Data.group22Rows, a.2 < 191 := by decide +kernel
  have := this a ha
  have : (a.2 : ℝ) < 191 := by exact_mod_cast this
  simp only [toReal]
  norm_num
  linarith

open Flange in
/-- `test_get_max_temperature_good`: class 150, 316, 14.8 bar (a quantity) and 14.25 bar (a pair). -/
theorem flange_max_temperature (h : reg.parse "bar" = some PUnit.bar) :
    (∃ q, getMaxTemperature reg "150" (.quantity ⟨14.8, PUnit.bar, 0⟩) (.str "316") = .ok q ∧
      q.phys = 150 + 27315 / 100) ∧
    (∃ q, getMaxTemperature reg "150" (.pair 14.25 "bar") (.str "316") = .ok q ∧
      q.phys = 175 + 27315 / 100) := by
  have hsort : ∃ pre suf, ((intCurve 0 Data.group22Rows).map Prod.swap).insertionSort
      (fun a b : ℕ × ℤ => a.1 ≤ b.1) = pre ++ (137, 200) :: (148, 150) :: (162, 100) :: suf :=
    ⟨(((intCurve 0 Data.group22Rows).map Prod.swap).insertionSort
        (fun a b : ℕ × ℤ => a.1 ≤ b.1)).take 23, (((intCurve 0 Data.group22Rows).map Prod.swap).insertionSort
        (fun a b : ℕ × ℤ => a.1 ≤ b.1)).drop 26, by decide +kernel⟩
  obtain ⟨pre, suf, hs⟩ := hsort
  have m1 : (816, 0) ∈ curveOf 0 Data.group22Rows := by norm_num [curveOf, Data.group22Rows, cellBar]
  have m2 : (-29, 19) ∈ curveOf 0 Data.group22Rows := by norm_num [curveOf, Data.group22Rows, cellBar]
  have hs' : ((intCurve 0 Data.group22Rows).map Prod.swap).insertionSort
      (fun a b : ℕ × ℤ => a.1 ≤ b.1) = (pre ++ [(137, 200)]) ++ (148, 150) :: (162, 100) :: suf := by
    rw [hs]; simp
  constructor
  · refine ⟨_, (getMaxTemperature_eval (curve316 "150" 0 rfl) (isBar 14.8)).1 ⟨_, m1, by norm_num⟩
      ⟨_, m2, by norm_num⟩, ?_⟩
    rw [phys_kelvin, curveOf_eq, inv_segment hs' (by norm_num) (by norm_num)]
    norm_num
  · refine ⟨_, (getMaxTemperature_eval (u := reg) (x := .pair 14.25 "bar") (p := 14.25)
      (curve316 "150" 0 rfl) ⟨_, h, rfl, by norm_num [PUnit.bar]⟩).1 ⟨_, m1, by norm_num⟩
      ⟨_, m2, by norm_num⟩, ?_⟩
    rw [phys_kelvin, curveOf_eq, inv_segment hs (by norm_num) (by norm_num)]
    norm_num

open Flange in
/-- `TestFlange.test_get_class_good_output`: at 400 degC, 85.3 bar for 304 (a pair), 88.3 bar for 316 and 72.9
bar for 304L need class 900. -/
theorem flange_get_class (u : Registry) (h : reg.parse "bar" = some PUnit.bar) :
    getClass u reg (.pair 85.3 "bar") (.quantity ⟨400, PUnit.degC, 0⟩) (.str "304") = .ok "900" ∧
    getClass u reg (.quantity ⟨88.3, PUnit.bar, 0⟩) (.quantity ⟨400, PUnit.degC, 0⟩) (.str "316") = .ok "900" ∧
    getClass u reg (.quantity ⟨72.9, PUnit.bar, 0⟩) (.quantity ⟨400, PUnit.degC, 0⟩) (.str "304L") =
      .ok "900" := by
  refine ⟨C43_rating_selects_class (p := 85.3) (t := 400) ⟨_, h, rfl, by norm_num [PUnit.bar]⟩ (isDegC 400)
      (curve304 "900" 4 rfl) ?_,
    C43_rating_selects_class (isBar 88.3) (isDegC 400) (curve316 "900" 4 rfl) ?_,
    C43_rating_selects_class (isBar 72.9) (isDegC 400) (curve := curveOf 4 Data.group23Rows)
      ⟨("304L", "2.3", 200, 78, 28), by decide, rfl, ("2.3", Data.group23Cols, Data.group23Rows),
        by decide, rfl, 4, rfl, rfl⟩ ?_⟩
  · refine ⟨curveOf 4 (Data.group21Rows.take 11), (400, 85.3), (425, 84), curveOf 4 (Data.group21Rows.drop 13),
      ?_, by norm_num, by norm_num, by norm_num⟩
    norm_num [curveOf, Data.group21Rows, cellBar]
  · refine ⟨curveOf 4 (Data.group22Rows.take 11), (400, 88.3), (425, 87.4),
      curveOf 4 (Data.group22Rows.drop 13), ?_, by norm_num, by norm_num, by norm_num⟩
    norm_num [curveOf, Data.group22Rows, cellBar]
  · refine ⟨curveOf 4 (Data.group23Rows.take 11), (400, 72.9), (425, 71.6),
      curveOf 4 (Data.group23Rows.drop 13), ?_, by norm_num, by norm_num, by norm_num⟩
    norm_num [curveOf, Data.group23Rows, cellBar]

open Flange in
theorem curve316L (c : String) (i : ℕ) (h : Data.group23Cols[i]? = some c) :
    IsCurve "316L" c (curveOf i Data.group23Rows) :=
  ⟨("316L", "2.3", 200, 79, 28), by decide, rfl, ("2.3", Data.group23Cols, Data.group23Rows),
    by decide, rfl, i, h, rfl⟩

open Flange in
/-- `test_get_class_bad_temperature`, `test_get_class_bad_pressure`. -/
theorem flange_get_class_bad (u : Registry) (h : reg.parse "bar" = some PUnit.bar)
    (h' : reg.parse "degC" = some PUnit.degC) :
    IsValueError (getClass u reg (.quantity ⟨125, PUnit.bar, 0⟩) (.pair (-100) "degC") (.str "316L")) ∧
    IsValueError (getClass u reg (.quantity ⟨125, PUnit.bar, 0⟩) (.quantity ⟨500, PUnit.degC, 0⟩) (.str "316L")) ∧
    getClass u reg (.pair 350 "bar") (.pair 350 "degC") (.str "316L") =
      .error (.valueError "Pressure out of range.") ∧
    Data.group23Rows.map (·.1) ≠ [] := by
  have hr : ∀ r ∈ Data.group23Rows, -100 < r.1 ∧ r.1 < 500 := by decide +kernel
  have hp : ∀ a ∈ intCurve 6 Data.group23Rows, a.2 < 3500 := by decide +kernel
  refine ⟨?_, ?_, ?_, by decide +kernel⟩
  · refine (C44_partial (isBar 125) (reg := reg) (y := .pair (-100) "degC") (t := -100) ⟨_, h', rfl, by norm_num [PUnit.degC]⟩).2.1
      (curve316L "2500" 6 rfl) (by norm_num) (by norm_num) (Or.inr ?_)
    intro b hb
    obtain ⟨r, hr', rfl⟩ := List.mem_map.mp hb
    have := (hr r hr').1
    simp only
    exact_mod_cast this
  · refine (C44_partial (isBar 125) (isDegC 500)).2.1
      (curve316L "2500" 6 rfl) (by norm_num) (by norm_num) (Or.inl ?_)
    intro b hb
    obtain ⟨r, hr', rfl⟩ := List.mem_map.mp hb
    have := (hr r hr').2
    simp only
    exact_mod_cast this
  · refine (C44_partial (reg := reg) (x := .pair 350 "bar") (y := .pair 350 "degC") (p := 350) (t := 350) ⟨_, h, rfl, by norm_num [PUnit.bar]⟩
      ⟨_, h', rfl, by norm_num [PUnit.degC]⟩).1 (curve316L "2500" 6 rfl) (by norm_num) (by norm_num) ?_
    intro b hb
    rw [curveOf_eq] at hb
    obtain ⟨a, ha, rfl⟩ := List.mem_map.mp hb
    have : (a.2 : ℝ) < 3500 := by exact_mod_cast hp a ha
    simp only [toReal]
    linarith

open Flange in
/-- `TestGetFlangeLimitsFromCSV.test_good_output`: the imported 900 columns at 400 degC (bar). -/
theorem flange_limits :
    ∃ fs, loadAll shipped = .ok fs ∧
      ∀ g ∈ [("2.1", (853 : ℕ)), ("2.2", 883), ("2.3", 729)], ∃ f, fs.lookup g.1 = some f ∧
        ∃ r ∈ f.rows, r.1 = 400 ∧ (f.cols.zip r.2).lookup "900" = some ((g.2 : ℝ) / 10) := by
  refine ⟨_, load_shipped, ?_⟩
  have hl : ∀ g ∈ [("2.1", (853 : ℕ)), ("2.2", 883), ("2.3", 729)], ∃ tb ∈ ratingTables, tb.1 = g.1 ∧
      ∃ r ∈ tb.2.2, r.1 = 400 ∧ tb.2.1[4]? = some "900" ∧ r.2[4]? = some (some g.2) := by decide +kernel
  have hlk : ∀ tb ∈ ratingTables, ∀ tb' ∈ ratingTables, tb.1 = tb'.1 → tb = tb' := by decide +kernel
  intro g hg
  obtain ⟨tb, ht, hg1, r, hr, h400, h4, hv⟩ := hl g hg
  refine ⟨frameOf tb.2, ?_, ((r.1 : ℝ), r.2.map fun c => ((c.getD 0 : ℕ) : ℝ) / 10), ?_, ?_, ?_⟩
  · rw [← hg1]
    have : ∀ l : List (String × List String × List (Int × List (Option Nat))),
        (∀ a ∈ l, ∀ b ∈ l, a.1 = b.1 → a = b) → tb ∈ l →
        (l.map fun tb => (tb.1, frameOf tb.2)).lookup tb.1 = some (frameOf tb.2) := by
      intro l
      induction l with
      | nil => intro _ h; simp at h
      | cons a l ih =>
        intro hinj hm
        by_cases he : tb.1 = a.1
        · have : a = tb := hinj a (by simp) tb hm he.symm
          subst this
          simp
        · have hm' : tb ∈ l := by
            rcases List.mem_cons.mp hm with rfl | h
            · exact absurd rfl he
            · exact h
          rw [List.map_cons, List.lookup_cons]
          have : (tb.1 == a.1) = false := by simpa using he
          simp only [this]
          exact ih (fun x hx y hy => hinj x (by simp [hx]) y (by simp [hy])) hm'
    exact this _ hlk ht
  · exact List.mem_map.mpr ⟨r, hr, rfl⟩
  · simp only [h400]; norm_num
  · simp only [frameOf]
    rw [lookup_cell ht h4 hr]
    simp [cellBar, hv]

open Flange in
/-- `TestGetFlangeLimitsFromCSV.test_bad_pressure`: every file holds a row (10, -10). -/
theorem flange_limits_negative :
    loadFrame ⟨["900"], [(some 10, [some (-10)])]⟩ = .error (.valueError "\nPressure less than zero.") ∧
    IsValueError (loadAll fun _ => some ⟨["900"], [(some 10, [some (-10)])]⟩) :=
  ⟨(loadFrame_cases _).2 ⟨(some 10, [some (-10)]), List.mem_singleton.mpr rfl, -10, List.mem_singleton.mpr rfl, by norm_num⟩,
    (C48_rejects _).1 (fun _ _ => ⟨_, rfl⟩)
      ⟨("2.1", "ASME_B16_5_flange_ratings_group_2_1.csv"), by simp [groupFiles], _, rfl,
        (some 10, [some (-10)]), List.mem_singleton.mpr rfl, -10, List.mem_singleton.mpr rfl, by norm_num⟩⟩

open Flange in
/-- `TestGetFlangeLimitsFromCSV.test_bad_material`: no files. -/
theorem flange_limits_missing : Raises (loadAll fun _ => none) :=
  (C48_rejects _).2 ⟨("2.1", "ASME_B16_5_flange_ratings_group_2_1.csv"), by simp [groupFiles], rfl⟩

open Flange in
/-- `TestGetFlangeLimitsFromCSV.test_zeroed_non_numeric`. -/
theorem flange_limits_zeroed :
    loadFrame ⟨["Pressure"], [(some 9, [none]), (none, [some 3]), (none, [none])]⟩ =
      .ok ⟨["Pressure"], [(9, [0]), (0, [3]), (0, [0])]⟩ := by
  simp [loadFrame]

/-- `TestCollectTubeMaterials.test_nonexistent_file`, `test_empty_file`. -/
theorem materials_file_bad (u : ℕ) :
    Csv.collectTubeMaterials u none = .error (.valueError "\nmaterials_list.csv does not exist") ∧
    Csv.collectTubeMaterials u (some []) = .error (.valueError "\nmaterials_list.csv is empty") :=
  ⟨(Import.C75_missing_or_empty (lines := [])).1, (Import.C75_missing_or_empty (lines := [])).2 (by simp)⟩

open Materials in
/-- `TestCheckMaterialList.test_good_result`, `test_no_files_found`. -/
theorem check_materials_list {iter : List String → List String} (h : Enumerates iter) :
    (checkMaterialsList dir shippedDir (Data.materialRows.map fun r => (r.1, r.2.1)) iter).2 = .ok true ∧
    (checkMaterialsList dir [] (Data.materialRows.map fun r => (r.1, r.2.1)) iter).2 =
      .error (.fileNotFound "No files containing 'flange' or 'stress' found") :=
  ⟨congrArg Prod.snd (C50_shipped_data_pass h), rfl⟩

deriving instance DecidableEq for Materials.Entry

/-- The fake directories of `TestCheckMaterialList`. -/
def fakeDir (stress line : String) : List Materials.Entry :=
  [⟨"asdfflangegroup0sfh", line⟩, ⟨"asdfflangegroup1asd", line⟩, ⟨stress, line⟩]

open Materials in
/-- `TestCheckMaterialList.test_no_welded_or_seamless`. -/
theorem check_materials_warns {iter : List String → List String} (materials : List (String × String)) :
    "asdfstresswdasdg does not indicate whether it is welded or seamless" ∈
      (checkMaterialsList dir (fakeDir "asdfstresswdasdg" "ASDF,thing0,thing1\n") materials iter).1 := by
  have h1 : ((fakeDir "asdfstresswdasdg" "ASDF,thing0,thing1\n").filter fun f => pyIn "stress" (lower f.name)) =
      [⟨"asdfstresswdasdg", "ASDF,thing0,thing1\n"⟩] := by decide +kernel
  have h2 : ((fakeDir "asdfstresswdasdg" "ASDF,thing0,thing1\n").filter fun f => pyIn "flange" (lower f.name)) =
      [⟨"asdfflangegroup0sfh", "ASDF,thing0,thing1\n"⟩, ⟨"asdfflangegroup1asd", "ASDF,thing0,thing1\n"⟩] := by
    decide +kernel
  have h3 : checkWarnings [⟨"asdfstresswdasdg", "ASDF,thing0,thing1\n"⟩] =
      ["asdfstresswdasdg does not indicate whether it is welded or seamless"] := by decide +kernel
  simp only [checkMaterialsList, h1, h2, h3]
  simp

open Materials in
/-- `TestCheckMaterialList.test_check_materials_list_missing_material`: thing1 has no column. -/
theorem check_materials_missing {iter : List String → List String} (h : Enumerates iter) :
    (checkMaterialsList "pypbomb/lookup_data" (fakeDir "asdfstressweldedasdg" "ASDF,thing0\n")
        [("thing0", "group0"), ("thing1", "group1")] iter).2 =
      .error (.valueError "\nMaterial thing1 not found in pypbomb/lookup_data/asdfstressweldedasdg\n") := by
  have h1 : ((fakeDir "asdfstressweldedasdg" "ASDF,thing0\n").filter fun f => pyIn "stress" (lower f.name)) =
      [⟨"asdfstressweldedasdg", "ASDF,thing0\n"⟩] := by decide +kernel
  have h2 : ((fakeDir "asdfstressweldedasdg" "ASDF,thing0\n").filter fun f => pyIn "flange" (lower f.name)) =
      [⟨"asdfflangegroup0sfh", "ASDF,thing0\n"⟩, ⟨"asdfflangegroup1asd", "ASDF,thing0\n"⟩] := by
    decide +kernel
  have h3 : stressErrors "pypbomb/lookup_data" [⟨"asdfstressweldedasdg", "ASDF,thing0\n"⟩] ["thing0", "thing1"] =
      ["Material thing1 not found in pypbomb/lookup_data/asdfstressweldedasdg\n"] := by decide +kernel
  have h4 : ∀ l : List String, (∀ g ∈ l, g = "group0" ∨ g = "group1") →
      groupErrors [⟨"asdfflangegroup0sfh", "ASDF,thing0\n"⟩, ⟨"asdfflangegroup1asd", "ASDF,thing0\n"⟩] l = [] := by
    intro l hl
    have e0 : ([⟨"asdfflangegroup0sfh", "ASDF,thing0\n"⟩, ⟨"asdfflangegroup1asd", "ASDF,thing0\n"⟩] :
      List Entry).any (fun rating => decide (0 < pyFind "group0".toList rating.name.toList 0)) = true := by
      decide +kernel
    have e1 : ([⟨"asdfflangegroup0sfh", "ASDF,thing0\n"⟩, ⟨"asdfflangegroup1asd", "ASDF,thing0\n"⟩] :
      List Entry).any (fun rating => decide (0 < pyFind "group1".toList rating.name.toList 0)) = true := by
      decide +kernel
    unfold groupErrors
    rw [List.map_eq_nil_iff, List.filter_eq_nil_iff]
    intro g hg
    rcases hl g hg with rfl | rfl
    · rw [e0]; decide
    · rw [e1]; decide
  have f0 : Flange.fileGroup "group0" = "group0" := by decide +kernel
  have f1 : Flange.fileGroup "group1" = "group1" := by decide +kernel
  have h5 := h4 (iter (([("thing0", "group0"), ("thing1", "group1")] : List (String × String)).map
    fun m => Flange.fileGroup m.2)) (by
      intro g hg
      rw [h] at hg
      simpa [f0, f1] using hg)
  simp only [checkMaterialsList, h1, h2]
  rw [h5]
  simp only [List.map_cons, List.map_nil, h3, List.append_nil]
  simp

/-- `test_import_thread_specs`: the 0-80 pitch diameters. -/
theorem import_thread_specs :
    Bolt.external.get "pitch diameter max" "0-80" "2A" = .ok 0.0514 ∧
    Bolt.external.get "pitch diameter max" "0-80" "3A" = .ok 0.0519 ∧
    Bolt.internal.get "pitch diameter max" "0-80" "2B" = .ok 0.0542 ∧
    Bolt.internal.get "pitch diameter max" "0-80" "3B" = .ok 0.0536 := by
  have a : Bolt.external.cells "pitch diameter max" "0-80" "2A" = [514] := by decide +kernel
  have b : Bolt.external.cells "pitch diameter max" "0-80" "3A" = [519] := by decide +kernel
  have c : Bolt.internal.cells "pitch diameter max" "0-80" "2B" = [542] := by decide +kernel
  have d : Bolt.internal.cells "pitch diameter max" "0-80" "3B" = [536] := by decide +kernel
  simp only [Bolt.Table.get, a, b, c, d]
  norm_num

end Pypbomb.Conformance
