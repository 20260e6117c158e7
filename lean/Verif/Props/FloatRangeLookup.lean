/-
Property C131: overflow and underflow in the table lookups and in the run-up distance.  As C130, for the functions that take
temperatures, interpolate in tables or take logarithms.
-/
import Verif.Lemmas.SizedLookup
import Verif.Props.FloatRoundTrip
import Verif.Props.RoundedTemperature
import Verif.Props.RoundedRunUp
import Verif.Props.FloatRange

namespace Pypbomb
open Quantity
open scoped Classical

/-! ### Vocabulary -/

/-- A float argument that is 0 or between 2^-50 and 2^50, in a unit between 2^-34 and 2^34 of the SI unit, which may have an
offset of such a size. -/
def FloatArgT (reg : Registry) (x : QIn) : Prop :=
  match x with
  | .quantity q => IsFloat q.mag ∧ Sized 50 q.mag ∧ Sized 34 q.unit.offset ∧ Sized 34 q.unit.scale
  | .pair m s => IsFloat m ∧ Sized 50 m ∧ ∀ u, reg.parse s = some u → Sized 34 u.offset ∧ Sized 34 u.scale
  | .other => True

section
variable {fp : FP} {κ n k : ℕ} {reg : Registry} {x : QIn}

private theorem parse_same (h : FloatArgT reg x) : Same (QT 50 34) (parseQ x reg) (parseQ x reg) := by
  refine ⟨rfl, fun q e => ?_⟩
  cases x with
  | quantity q' => cases e; exact ⟨⟨h.2.1, h.1⟩, h.2.2.2, h.2.2.1⟩
  | pair m s =>
    simp only [parseQ] at e
    cases hs : reg.parse s with
    | none => rw [hs] at e; cases e
    | some u =>
      rw [hs] at e; cases e
      exact ⟨⟨h.2.1, h.1⟩, (h.2.2 u hs).2, (h.2.2 u hs).1⟩
  | other => cases e

private theorem parse_again {q : Quantity} (h : QT 50 34 q) :
    Same (QT 50 34) (parseQ (.quantity q) reg) (parseQ (.quantity q) reg) :=
  ⟨rfl, fun q' e => by cases e; exact ⟨h.mag, h.unit, h.off⟩⟩

/-- Whole numbers are kept. -/
theorem FP.IEEE.ints (H : fp.IEEE κ) : Tube.FP.Ints fp.widen := by
  intro k hk
  have hs : Sized 1022 (k : ℝ) := (Flange.sized_int (n := 11) (hk.trans (by norm_num))).mono (by norm_num)
  rw [FP.IEEE.widen_rnd hs le_rfl]
  exact H.exact _ hs ⟨k, 0, lt_of_le_of_lt hk (by norm_num), by simp⟩

end

/-! ### The allowable stress -/

namespace Tube
variable {fp : FP} {κ : ℕ} {reg : Registry} {x : QIn} {t : ℝ} {i : ℕ} {material : String} {welded : Bool}

private theorem limits_same (H : fp.IEEE κ) (material : String) (welded : Bool) :
    Same (fun pts => ∀ p ∈ pts, SF 16 p.1 ∧ SF 16 p.2) (stressLimitsR fp material welded)
      (stressLimitsR fp.widen material welded) := by
  unfold stressLimitsR
  have key : ∀ r ∈ stressRows welded, |r.1| ≤ 10000 ∧ ∀ y ∈ r.2, y ≤ 10000 := by cases welded <;> decide +kernel
  have hp : Same (fun pts => ∀ p ∈ pts, Sized 15 p.1 ∧ Sized 15 p.2) (stressLimits material welded)
      (stressLimits material welded) := by
    refine ⟨rfl, fun pts h p hp => ?_⟩
    simp only [stressLimits, limits_eq] at h
    split at h
    · cases h
      obtain ⟨r, hr, h2⟩ := List.mem_filterMap.mp hp
      obtain ⟨y, hy, rfl⟩ := Option.map_eq_some_iff.mp h2
      refine ⟨Flange.sized_int ((key r hr).1.trans (by norm_num)), ?_⟩
      unfold cell at hy
      split at hy
      · cases hy
        exact Flange.sized_int ((key r hr).1.trans (by norm_num))
      · obtain ⟨c, hc, rfl⟩ := Option.map_eq_some_iff.mp hy
        exact Flange.sized_tenth ((key r hr).2 c (List.of_mem_zip (mem_of_lookup hc)).2)
    · cases h
  refine hp.bind fun pts h => ?_
  have e : (pts.map fun p => (fp.widen.rnd p.1, fp.widen.rnd p.2)) = pts.map fun p => (fp.rnd p.1, fp.rnd p.2) :=
    List.map_congr_left fun p hp => by
      rw [FP.IEEE.widen_rnd (h p hp).1 (by norm_num), FP.IEEE.widen_rnd (h p hp).2 (by norm_num)]
  rw [e]
  refine .ok fun q hq => ?_
  obtain ⟨p, hp, rfl⟩ := List.mem_map.mp hq
  exact ⟨H.sf (h p hp).1 (by norm_num), H.sf (h p hp).2 (by norm_num)⟩

/-- `calculate_max_stress` at a temperature between 2^-50 and 2^50 (or 0) in a unit of sensible size does not depend on what the
arithmetic does outside the range of normal doubles. -/
theorem C131_max_stress_same (H : fp.IEEE κ) (hx : FloatArgT reg x) (material : String) (welded : Bool) :
    maxStressR fp reg x material welded = maxStressR fp.widen reg x material welded := by
  unfold maxStressR
  refine (Same.bind (Q := fun _ => True) (parse_same hx) fun q hq => (limits_same H material welded).bind fun pts hp => ?_).1
  refine Same.ite (fun _ => ?_) fun _ => .error
  refine (hq.degF H (by norm_num) (by norm_num)).bind fun f hf => ?_
  rw [npInterpR_same H (hf.mono (by norm_num)) fun p h =>
    ⟨(hp p h).1.mono (by norm_num), (hp p h).2.mono (by norm_num)⟩]
  exact .ok trivial

/-- C111 in double precision with its limited range: the stress is right to `(1400 κ + 3200) 2^-53` ksi. -/
theorem C131_max_stress_accuracy (H : fp.IEEE κ) (hu : ((κ : ℝ) + 10) * (1 / 2) ^ 53 ≤ 1 / 100) {w : PUnit}
    (fx : FloatArgT reg x) (hx : IsDegF reg x t) (hw : UnitOf reg x w) (w0 : 0 ≤ w.offset) (w1 : w.offset ≤ 300)
    (t0 : -459.67 ≤ t) (t1 : t ≤ 3140) (hi : (stressCols welded)[i]? = some material) :
    ∃ s s', maxStress reg x material welded = .ok ⟨s, PUnit.ksi, reg.id⟩ ∧
      maxStressR fp reg x material welded = .ok ⟨s', PUnit.ksi, reg.id⟩ ∧
      |s' - s| ≤ (1400 * κ + 3200) * (1 / 2) ^ 53 := by
  rw [C131_max_stress_same H fx]
  exact C111_accuracy H.widen_accurate hu H.ints hx hw w0 w1 t0 t1 hi

/-- C111 in double precision with its limited range: the same arguments are refused, with the same exception. -/
theorem C131_max_stress_rejects (H : fp.IEEE κ) (fx : FloatArgT reg x) (e : PyErr) :
    maxStressR fp reg x material welded = .error e ↔ maxStress reg x material welded = .error e := by
  rw [C131_max_stress_same H fx]
  exact C111_rejects H.ints reg x material welded e

/-- C111 in double precision with its limited range: a tabulated temperature in degF gives exactly the tabulated float. -/
theorem C131_max_stress_at_table (H : fp.IEEE κ) {s : ℕ} {r : ℤ × List ℕ} (hr : r ∈ stressRows welded)
    (hi : (stressCols welded)[i]? = some material) (hs : r.2[i]? = some s) (fx : FloatArgT reg x) (hx : IsDegF reg x r.1)
    (hw : UnitOf reg x PUnit.degF) :
    maxStressR fp reg x material welded = .ok ⟨fp.rnd (s / 10), PUnit.ksi, reg.id⟩ := by
  have key : ∀ r ∈ stressRows welded, ∀ y ∈ r.2, y ≤ 10000 := by cases welded <;> decide +kernel
  rw [C131_max_stress_same H fx, C111_at_table H.ints hr hi hs hx hw, FP.IEEE.widen_rnd
    (Flange.sized_tenth (key r hr s (List.mem_of_getElem? hs))) (by norm_num)]

end Tube

/-! ### Flange ratings -/

namespace Flange
variable {fp : FP} {κ : ℕ} {u reg : Registry} {material cls c : String} {curve : List (ℝ × ℝ)} {x y : QIn} {t p : ℝ}

/-- `get_max_pressure` at a temperature of sensible size does not depend on what the arithmetic does outside the range of
normal doubles. -/
theorem C131_max_pressure_same (H : fp.IEEE κ) (hx : FloatArgT u x) (cls : String) (m : Tube.MatIn) :
    getMaxPressureR fp u cls x m = getMaxPressureR fp.widen u cls x m := by
  unfold getMaxPressureR
  refine withLimitsR_same H fun lim hlim => ?_
  refine (Same.bind (Q := fun _ => True) (lookupGroup_fs hlim m) fun g hg => (Same.any _).bind fun _ _ =>
    (parse_same hx).bind fun q hq => ?_).1
  have hs := series_sf (temps_fs hg)
  refine (checkRangeR_same H hq ((degC_qt hs.2).mono le_rfl (by norm_num)) ((degC_qt hs.1).mono le_rfl (by norm_num))).bind
    fun _ _ => Same.ite (fun _ => .error) fun _ => ?_
  obtain ⟨e, hb⟩ := hq.base H (by norm_num) (by norm_num)
  rw [(curveSIR_same H hg cls).1, e, interpolateR_same H (hb.mono (by norm_num)) (curveSIR_same H hg cls).2]
  exact .ok trivial

/-- The same for `get_max_temperature`. -/
theorem C131_max_temperature_same (H : fp.IEEE κ) (hx : FloatArgT u x) (cls : String) (m : Tube.MatIn) :
    getMaxTemperatureR fp u cls x m = getMaxTemperatureR fp.widen u cls x m := by
  unfold getMaxTemperatureR
  refine withLimitsR_same H fun lim hlim => ?_
  refine (Same.bind (Q := fun _ => True) (lookupGroup_fs hlim m) fun g hg => (Same.any _).bind fun _ _ =>
    (parse_same hx).bind fun q hq => Same.ite (fun _ => .error) fun _ => ?_).1
  have hs := series_sf (colBar_fs hg cls)
  refine (checkRangeR_same H hq (bar_qt hs.2) (bar_qt hs.1)).bind fun _ _ => ?_
  obtain ⟨e, hb⟩ := hq.base H (by norm_num) (by norm_num)
  have hc := curveSIR_same H hg cls
  rw [hc.1, e, interpolateR_same H (hb.mono (by norm_num)) fun p hp => ?_]
  · exact .ok trivial
  · obtain ⟨r, hr, rfl⟩ := List.mem_map.mp hp
    exact (hc.2 r hr).symm

/-- The same for `get_class`. -/
theorem C131_class_same (H : fp.IEEE κ) (hx : FloatArgT reg x) (hy : FloatArgT reg y) (m : Tube.MatIn) :
    getClassR fp u reg x y m = getClassR fp.widen u reg x y m := by
  unfold getClassR
  refine withLimitsR_same H fun lim hlim => ?_
  refine (Same.bind (Q := fun _ => True) (parse_same hx) fun p hp => (parse_same hy).bind fun t ht => ?_).1
  rw [checkBaseR_same H hp, checkBaseR_same H ht]
  refine (Same.any _).bind fun _ _ => (Same.any _).bind fun _ _ => (parse_again hp).bind fun p hp =>
    (parse_again ht).bind fun t ht => (lookupGroup_fs hlim m).bind fun g hg => (Same.any _).bind fun key _ => ?_
  have hs := series_sf (temps_fs hg)
  have hc := series_sf (colBar_fs hg key)
  refine Same.bind (P := fun _ => True) ?_ fun _ _ => (checkRangeR_same H ht ((degC_qt hs.2).mono le_rfl (by norm_num))
    ((degC_qt hs.1).mono le_rfl (by norm_num))).bind fun _ _ => ?_
  · unfold checkMaxPressureR
    exact ((bar_qt hc.1).less H hp (by norm_num) (by norm_num) (by norm_num) (by norm_num)).bind fun _ _ => Same.any _
  · obtain ⟨e, hb⟩ := hp.base H (by norm_num) (by norm_num)
    obtain ⟨e', hb'⟩ := ht.base H (by norm_num) (by norm_num)
    rw [e, e', firstClassR_same H hg (hb'.mono (by norm_num))]
    exact Same.any _

/-- C112 in double precision with its limited range: `get_max_pressure`. -/
theorem C131_pressure (H : fp.IEEE κ) (Hm : fp.MonoIn) (hu : ((κ : ℝ) + 10) * (1 / 2) ^ 53 ≤ 1 / 100000)
    (fx : FloatArgT u x) (hc : IsCurve material cls curve) (hx : IsDegC u x t) {w : PUnit} (hw : UnitOf u x w)
    (o0 : 0 ≤ w.offset) (o1 : w.offset ≤ 300) (t0 : -27315 / 100 ≤ t) (t1 : t ≤ 1700) {q : Quantity}
    (h : getMaxPressureR fp u cls x (.str material) = .ok q) :
    ∃ t' p, |t' - t| ≤ shift ((1 / 2) ^ 53) κ ∧ On curve t' p ∧ RelClose ((1 / 2) ^ 53) (κ + 8) (p * 100000) q.mag ∧
      q.unit = PUnit.pascal ∧ q.reg = outReg u x := by
  rw [C131_max_pressure_same H fx] at h
  exact C112_pressure H.widen_accurate (H.widen_monotone Hm) hu hc hx hw o0 o1 t0 t1 h

/-- C112 in double precision with its limited range: which temperatures are accepted. -/
theorem C131_pressure_range (H : fp.IEEE κ) (Hm : fp.MonoIn) (hu : ((κ : ℝ) + 10) * (1 / 2) ^ 53 ≤ 1 / 100000)
    (fx : FloatArgT u x) (hc : IsCurve material cls curve) (hx : IsDegC u x t) {w : PUnit} (hw : UnitOf u x w)
    (o0 : 0 ≤ w.offset) (o1 : w.offset ≤ 300) (t0 : -27315 / 100 ≤ t) (t1 : t ≤ 1700) :
    ((∃ a ∈ curve, a.1 + shift ((1 / 2) ^ 53) κ < t) → (∃ b ∈ curve, t + shift ((1 / 2) ^ 53) κ < b.1) →
      ∃ q, getMaxPressureR fp u cls x (.str material) = .ok q) ∧
    ((∀ a ∈ curve, t + shift ((1 / 2) ^ 53) κ < a.1) ∨ (∀ b ∈ curve, b.1 + shift ((1 / 2) ^ 53) κ < t) →
      getMaxPressureR fp u cls x (.str material) = .error (.valueError "Temperature out of range.")) := by
  rw [C131_max_pressure_same H fx]
  exact C112_range H.widen_accurate (H.widen_monotone Hm) hu hc hx hw o0 o1 t0 t1

/-- C112 in double precision with its limited range: in degC the range check is exact. -/
theorem C131_pressure_range_degC (H : fp.IEEE κ) (fx : FloatArgT u x) (hc : IsCurve material cls curve) (hx : IsDegC u x t)
    (hw : UnitOf u x PUnit.degC) :
    ((∃ p, On curve t p) → ∃ q, getMaxPressureR fp u cls x (.str material) = .ok q) ∧
    ((¬ ∃ p, On curve t p) →
      getMaxPressureR fp u cls x (.str material) = .error (.valueError "Temperature out of range.")) := by
  rw [C131_max_pressure_same H fx]
  exact C112_range_degC H.ints hc hx hw

/-- C112 in double precision with its limited range: `get_class` returns a class that is rated for the pressure at a temperature a
hair away, while no smaller class is. -/
theorem C131_class (H : fp.IEEE κ) (Hm : fp.MonoIn) (hu : ((κ : ℝ) + 10) * (1 / 2) ^ 53 ≤ 1 / 100000)
    (fx : FloatArgT reg x) (fy : FloatArgT reg y)
    (hx : IsBar reg x p) (hy : IsDegC reg y t) {v w : PUnit} (hv : UnitOf reg x v) (hw : UnitOf reg y w)
    (v0 : v.offset = 0) (o0 : 0 ≤ w.offset) (o1 : w.offset ≤ 300) (t1 : t ≤ 1700) (t0 : -27315 / 100 ≤ t)
    (h : getClassR fp u reg x y (.str material) = .ok c) :
    ∃ n t', (c, n) ∈ classes ∧ |t' - t| ≤ shift ((1 / 2) ^ 53) κ ∧
      (∃ curve r, IsCurve material c curve ∧ On curve t' r ∧ p * (1 - (1 / 2) ^ 53) ^ (2 * κ + 9) ≤ r) ∧
      ∀ c' n', (c', n') ∈ classes → n' < n →
        ∃ curve r, IsCurve material c' curve ∧ On curve t' r ∧ r * (1 - (1 / 2) ^ 53) ^ (2 * κ + 9) ≤ p := by
  rw [C131_class_same H fx fy] at h
  exact C112_class H.widen_accurate (H.widen_monotone Hm) hu hx hy hv hw v0 o0 o1 t1 t0 h

/-- C112 in double precision with its limited range: a class is found whenever class 2500 has that margin. -/
theorem C131_class_found (H : fp.IEEE κ) (Hm : fp.MonoIn) (hu : ((κ : ℝ) + 10) * (1 / 2) ^ 53 ≤ 1 / 100000)
    (fx : FloatArgT reg x) (fy : FloatArgT reg y)
    (hx : IsBar reg x p) (hy : IsDegC reg y t) {v w : PUnit} (hv : UnitOf reg x v) (hw : UnitOf reg y w)
    (v0 : v.offset = 0) (o0 : 0 ≤ w.offset) (o1 : w.offset ≤ 300) (p0 : 0 ≤ p) (hc : IsCurve material "2500" curve)
    (ha : ∃ a ∈ curve, a.1 + shift ((1 / 2) ^ 53) κ < t) (hb : ∃ b ∈ curve, t + shift ((1 / 2) ^ 53) κ < b.1)
    (hr : ∀ t' r, |t' - t| ≤ shift ((1 / 2) ^ 53) κ → On curve t' r → p < r * (1 - (1 / 2) ^ 53) ^ (2 * κ + 9)) :
    ∃ c, getClassR fp u reg x y (.str material) = .ok c := by
  rw [C131_class_same H fx fy]
  exact C112_class_found H.widen_accurate (H.widen_monotone Hm) hu hx hy hv hw v0 o0 o1 p0 hc ha hb hr

/-- C112 in double precision with its limited range: `get_class` agrees exactly with `get_max_pressure`. -/
theorem C131_agree (H : fp.IEEE κ) (Hm : fp.MonoIn) (fx : FloatArgT reg x) (fy : FloatArgT reg y) (fy' : FloatArgT u y) {w : PUnit}
    (hy : UnitOf u y w) (hy' : UnitOf reg y w)
    {qx : Quantity} (hx : parseQ x reg = .ok qx) (h : getClassR fp u reg x y (.str material) = .ok c) :
    ∃ n q, (c, n) ∈ classes ∧ getMaxPressureR fp u c y (.str material) = .ok q ∧ qx.baseR fp ≤ q.mag ∧
      ∀ c' n', (c', n') ∈ classes → n' < n →
        ∃ q', getMaxPressureR fp u c' y (.str material) = .ok q' ∧ q'.mag < qx.baseR fp := by
  rw [C131_class_same H fx fy] at h
  have := C112_agree (H.widen_monotone Hm) hy hy' hx h
  rw [(((parse_same fx).2 qx hx).base H (by norm_num) (by norm_num)).1] at this
  simpa only [← C131_max_pressure_same H fy'] using this

/-- C118 in double precision with its limited range: `get_max_temperature`. -/
theorem C131_temperature (H : fp.IEEE κ) (Hm : fp.MonoIn) (hu : ((κ : ℝ) + 10) * (1 / 2) ^ 53 ≤ 1 / 100000)
    (fx : FloatArgT u x) (hc : IsCurve material cls curve) (hx : IsBar u x p) {w : PUnit} (hw : UnitOf u x w)
    (o0 : w.offset = 0) (hb : ∃ b ∈ curve, p + pshift ((1 / 2) ^ 53) κ < b.2) {q : Quantity}
    (h : getMaxTemperatureR fp u cls x (.str material) = .ok q) :
    ∃ p', |p' - p| ≤ pshift ((1 / 2) ^ 53) κ ∧
      (∀ x', IsBar u x' p' → ∃ q', getMaxTemperature u cls x' (.str material) = .ok q' ∧
        |q.mag - q'.mag| ≤ tshift ((1 / 2) ^ 53) κ) ∧ q.unit = PUnit.kelvin ∧ q.reg = outReg u x := by
  rw [C131_max_temperature_same H fx] at h
  exact C118_temperature H.widen_accurate (H.widen_monotone Hm) hu hc hx hw o0 hb h

/-- C118 in double precision with its limited range: which pressures are accepted. -/
theorem C131_temperature_range (H : fp.IEEE κ) (Hm : fp.MonoIn) (hu : ((κ : ℝ) + 10) * (1 / 2) ^ 53 ≤ 1 / 100000)
    (fx : FloatArgT u x) (hc : IsCurve material cls curve) (hx : IsBar u x p) {w : PUnit} (hw : UnitOf u x w)
    (o0 : w.offset = 0) :
    ((∃ a ∈ curve, a.2 + pshift ((1 / 2) ^ 53) κ < p) → (∃ b ∈ curve, p + pshift ((1 / 2) ^ 53) κ < b.2) →
      ∃ q, getMaxTemperatureR fp u cls x (.str material) = .ok q) ∧
    ((∀ a ∈ curve, p + pshift ((1 / 2) ^ 53) κ < a.2) ∨ (∀ b ∈ curve, b.2 + pshift ((1 / 2) ^ 53) κ < p) →
      getMaxTemperatureR fp u cls x (.str material) = .error (.valueError "Pressure out of range.")) := by
  rw [C131_max_temperature_same H fx]
  exact C118_range H.widen_accurate (H.widen_monotone Hm) hu hc hx hw o0

/-- C118 in double precision with its limited range: a float between the smallest and the largest ratings, in bar, is accepted. -/
theorem C131_temperature_range_bar (H : fp.IEEE κ) (Hm : fp.MonoIn) (fx : FloatArgT u x) (hc : IsCurve material cls curve)
    (hx : IsBar u x p) (hw : UnitOf u x PUnit.bar) (hp : IsFloat p) (ha : ∃ a ∈ curve, a.2 ≤ p) (hb : ∃ b ∈ curve, p ≤ b.2) :
    ∃ q, getMaxTemperatureR fp u cls x (.str material) = .ok q := by
  rw [C131_max_temperature_same H fx]
  refine C118_range_bar (H.widen_monotone Hm) hc hx hw ?_ ha hb
  by_cases hs : Sized 1022 p
  · rw [FP.IEEE.widen_rnd hs le_rfl]; exact H.exact p hs hp
  · unfold FP.widen; dsimp only; rw [if_neg hs]

end Flange

/-! ### Run-up distance and sound speed -/

/-- What the gas model answers are floats that are 0 or between 2^-48 and 2^48. -/
structure FloatGas (ct : Cantera) : Prop where
  T : ∀ g, SF 48 (ct.T g)
  P : ∀ g, SF 48 (ct.P g)
  density : ∀ g, SF 48 (ct.density g)
  viscosity : ∀ g v, ct.viscosity g = .ok v → SF 48 v
  flameSpeed : ∀ g v, ct.flameSpeed g = .ok v → SF 48 v

namespace Thermochem
variable {fp : FP} {κ : ℕ} {ct : Cantera} {reg : Registry} {xT xP : QIn} {species : ct.Species} {mech phase : String}

private theorem flame_same (H : fp.IEEE κ) (G : FloatGas ct) (hT : FloatArgT reg xT) (hP : FloatArgT reg xP) :
    Same (QS 48 0) (laminarFlameSpeedR fp ct reg xT xP species mech phase)
      (laminarFlameSpeedR fp.widen ct reg xT xP species mech phase) := by
  unfold laminarFlameSpeedR
  refine (Same.any _).bind fun g _ => (parse_same hP).bind fun p hp => (parse_same hT).bind fun t ht => ?_
  rw [Flange.checkBaseR_same H hp, Flange.checkBaseR_same H ht, (hp.base H (by norm_num) (by norm_num)).1,
    (ht.base H (by norm_num) (by norm_num)).1]
  refine (Same.any _).bind fun _ _ => (Same.any _).bind fun _ _ => (Same.any _).bind fun g _ => ?_
  refine Same.bind (P := SF 48) ⟨rfl, fun v e => G.flameSpeed g v e⟩ fun v hv => ?_
  exact .ok ⟨hv.size, hv.float, Sized.one, rfl⟩

private theorem sound_same (H : fp.IEEE κ) (G : FloatGas ct) (hT : FloatArgT reg xT) (hP : FloatArgT reg xP) :
    Same (QS 106 0) (eqSoundSpeedR fp ct reg xT xP species mech phase)
      (eqSoundSpeedR fp.widen ct reg xT xP species mech phase) := by
  unfold eqSoundSpeedR
  refine (parse_same hP).bind fun p hp => (parse_same hT).bind fun t ht => ?_
  rw [Flange.checkBaseR_same H hp, Flange.checkBaseR_same H ht, (hp.base H (by norm_num) (by norm_num)).1,
    (ht.base H (by norm_num) (by norm_num)).1]
  refine (Same.any _).bind fun _ _ => (Same.any _).bind fun _ _ => (Same.any _).bind fun _ _ => (Same.any _).bind fun _ _ =>
    (Same.any _).bind fun g _ => ?_
  have c : Sized 1 (1.0001 : ℝ) := .inr (by norm_num)
  have a1 := (H.sized c (by norm_num)).mul (G.P g).size
  have p1 := H.sf a1 (by norm_num)
  have dp := p1.sub (G.P g)
  dsimp only
  rw [FP.IEEE.widen_rnd c (by norm_num), FP.IEEE.widen_rnd a1 (by norm_num), FP.IEEE.widen_rnd dp (by norm_num)]
  refine (Same.any _).bind fun _ _ => (Same.any _).bind fun g' _ => ?_
  have dd := (G.density g').sub (G.density g)
  rw [FP.IEEE.widen_rnd dd (by norm_num)]
  refine Same.bind (P := Sized 209) ⟨rfl, fun r e => ?_⟩ fun r hr => ?_
  · obtain ⟨-, rfl⟩ := pyDiv_eq_ok.mp e
    exact ((H.sized dp (by norm_num)).div (H.sized dd (by norm_num))).mono (by norm_num)
  rw [FP.IEEE.widen_rnd hr (by norm_num)]
  refine Same.bind (P := Sized 105) ⟨rfl, fun s e => ?_⟩ fun s hs => ?_
  · obtain ⟨h0, rfl⟩ := npSqrt_eq_ok.mp e
    have := (H.sized hr (by norm_num)).half (m := 105) h0 (by norm_num)
    rw [Real.sqrt_eq_rpow]
    convert this using 2
    norm_num
  rw [FP.IEEE.widen_rnd hs (by norm_num)]
  exact .ok ⟨(H.sized hs (by norm_num)).mono (by norm_num), H.isFloat hs (by norm_num), Sized.one, rfl⟩

/-- `get_eq_sound_speed` at a state of sensible size does not depend on what the arithmetic does outside the range of normal
doubles. -/
theorem C131_sound_speed_same (H : fp.IEEE κ) (G : FloatGas ct) (hT : FloatArgT reg xT) (hP : FloatArgT reg xP) :
    eqSoundSpeedR fp ct reg xT xP species mech phase = eqSoundSpeedR fp.widen ct reg xT xP species mech phase :=
  (sound_same H G hT hP).1

end Thermochem

namespace DDT
open Thermochem
variable {fp : FP} {κ : ℕ} {ct : Cantera} {reg : Registry} {xD xT xP : QIn} {species : ct.Species} {mech phase : String}

private theorem lit {z : ℝ} (n : ℕ) (h1 : 1 ≤ |z| * 2 ^ n) (h2 : |z| ≤ 2 ^ n) : Sized n z := .inr ⟨h1, h2⟩

private theorem eq44_same (H : fp.IEEE κ) {laminar sound tube : Quantity} {sigma br : ℝ} (hl : QS 48 0 laminar)
    (hs : QS 106 0 sound) (ht : QS 20 20 tube) (hg : SF 102 sigma) (hb : SF 50 br) :
    Same (SF 847 ·.mag) (eq44R fp laminar sound sigma tube br) (eq44R fp.widen laminar sound sigma tube br) := by
  have c20 : Sized 5 (2 * 10 : ℝ) := lit 5 (by norm_num) (by norm_num)
  have c2 : Sized 1 (2 : ℝ) := lit 1 (by norm_num) (by norm_num)
  have c15 : Sized 1 (1.5 : ℝ) := lit 1 (by norm_num) (by norm_num)
  have d := hg.sub SF.one
  have e1 := SF.one.sub hb
  have e2 := c2.mul (H.sized e1 (by norm_num))
  have e3 := c15.mul hb.size
  have e4 := SF.one.add (H.sf e3 (by norm_num))
  unfold eq44R
  rw [FP.IEEE.widen_rnd d (by norm_num), FP.IEEE.widen_rnd e1 (by norm_num), FP.IEEE.widen_rnd e2 (by norm_num),
    FP.IEEE.widen_rnd e3 (by norm_num), FP.IEEE.widen_rnd e4 (by norm_num)]
  refine (hl.scale H c20 (by norm_num)).bind fun l1 s1 => ?_
  refine (s1.scale H (H.sized d (by norm_num)) (by norm_num)).bind fun l2 s2 => ?_
  refine (hs.mul H ht (by norm_num)).bind fun ct sct => ?_
  refine (s2.div H sct (by norm_num)).bind fun lhs sl => ?_
  refine Same.bind (P := Sized 220) ⟨rfl, fun r e => ?_⟩ fun rhs hr => ?_
  · obtain ⟨-, rfl⟩ := pyDiv_eq_ok.mp e
    exact ((H.sized e2 (by norm_num)).div (H.sized e4 (by norm_num))).mono (by norm_num)
  rw [FP.IEEE.widen_rnd hr (by norm_num)]
  refine (QS.rdiv H (H.sized hr (by norm_num)) sl (by norm_num)).bind fun x sx => ?_
  exact (sx.convert H ht.unit ht.off (by norm_num) (by norm_num) (by norm_num)).imp fun q h =>
    ⟨h.mag.mono (by norm_num), h.float⟩

private theorem eq41_same (H : fp.IEEE κ) {r : ℕ} {rho mu : ℝ} {laminar sound tube : Quantity} {sigma br : ℝ} (hr : SF 48 rho)
    (hm : SF 48 mu) (hl : QS 48 0 laminar) (hs : QS 106 0 sound) (ht : QS 20 20 tube) (hg : SF 102 sigma) (hb : SF 50 br) :
    Same (SF 847 ·.mag) (eq41R fp r rho mu laminar sound sigma tube br)
      (eq41R fp.widen r rho mu laminar sound sigma tube br) := by
  have k1 : Sized 2 (0.4 : ℝ) := lit 2 (by norm_num) (by norm_num)
  have k2 : Sized 3 (5.5 : ℝ) := lit 3 (by norm_num) (by norm_num)
  have k3 : Sized 3 (0.2 : ℝ) := lit 3 (by norm_num) (by norm_num)
  have k4 : Sized 3 (0.18 : ℝ) := lit 3 (by norm_num) (by norm_num)
  have k5 : Sized 2 (2.1 : ℝ) := lit 2 (by norm_num) (by norm_num)
  have k6 : Sized 2 (1 / 3 : ℝ) := lit 2 (by norm_num) (by norm_num)
  have k7 : Sized 2 (7 / 3 : ℝ) := lit 2 (by norm_num) (by norm_num)
  have k8 := Sized.one.div (H.sized k1 (by norm_num))
  have c2 : Sized 1 (2 : ℝ) := lit 1 (by norm_num) (by norm_num)
  -- the exponents
  have third := H.between k6 (by norm_num) (lo := 1 / 3) (hi := 1 / 3) (by norm_num) le_rfl le_rfl
  have k4' : Sized 3 (-0.18 : ℝ) := k4.neg
  have b4 : -(101 / 100) * 0.18 ≤ fp.rnd (-0.18) ∧ fp.rnd (-0.18) ≤ -(99 / 100) * 0.18 := by
    have := abs_le.mp (H.rnd (-0.18) (k4'.mono (by norm_num)))
    norm_num at this ⊢
    constructor <;> linarith [this.1, this.2]
  have m2 := c2.mul (H.sized k4' (by norm_num))
  have b5 : -0.38 ≤ fp.rnd (2 * fp.rnd (-0.18)) ∧ fp.rnd (2 * fp.rnd (-0.18)) ≤ -0.34 := by
    have h1 := H.rnd _ (m2.mono (by norm_num : _ ≤ 1022))
    have h2 : |2 * fp.rnd (-0.18)| ≤ 0.37 := by rw [abs_le]; constructor <;> linarith [b4.1, b4.2]
    have h3 : ((1 : ℝ) / 2) ^ 53 * |2 * fp.rnd (-0.18)| ≤ 1 / 1000 * 0.37 :=
      mul_le_mul (by norm_num) h2 (abs_nonneg _) (by norm_num)
    have h4 := abs_le.mp h1
    constructor <;> linarith [h4.1, h4.2, b4.1, b4.2]
  have b7 := H.between k7 (by norm_num) (lo := 7 / 3) (hi := 7 / 3) (by norm_num) le_rfl le_rfl
  have es := (H.sf m2 (by norm_num)).add (H.sf k7 (by norm_num))
  have b8 := H.between es (by norm_num) (lo := 1.9) (hi := 2.1) (by norm_num) (by linarith [b5.1, b7.1])
    (by linarith [b5.2, b7.2])
  have ei := Sized.one.div (H.sized es (by norm_num))
  have b9 := H.between ei (by norm_num) (lo := 0.4) (hi := 0.6) (by norm_num)
    (by rw [le_div_iff₀ (by linarith [b8.1])]; linarith [b8.2]) (by rw [div_le_iff₀ (by linarith [b8.1])]; linarith [b8.1])
  -- the blockage ratio
  have r1 := SF.one.sub hb
  have r2 : Sized 52 (Real.sqrt (fp.rnd (1 - br))) := by
    rcases le_or_gt 0 (fp.rnd (1 - br)) with h0 | h0
    · have := (H.sized r1 (by norm_num)).half (m := 52) h0 (by norm_num)
      rw [Real.sqrt_eq_rpow]
      convert this using 2
      norm_num
    · exact .inl (Real.sqrt_eq_zero_of_nonpos h0.le)
  have r3 := SF.one.sub (H.sf r2 (by norm_num))
  -- the expansion ratio
  have g1 := hg.sub SF.one
  have g2 : Sized (155 + 155) (fp.rnd (sigma - 1) ^ 2) := by
    have := H.sized g1 (by norm_num)
    rw [pow_two]; exact this.mul this
  have g3 := (H.sized k5 (by norm_num)).mul (H.sized g2 (by norm_num))
  unfold eq41R
  dsimp only
  rw [FP.IEEE.widen_rnd k1 (by norm_num), FP.IEEE.widen_rnd k2 (by norm_num), FP.IEEE.widen_rnd k3 (by norm_num),
    FP.IEEE.widen_rnd k4' (by norm_num), FP.IEEE.widen_rnd k5 (by norm_num), FP.IEEE.widen_rnd k6 (by norm_num),
    FP.IEEE.widen_rnd k7 (by norm_num), FP.IEEE.widen_rnd k8 (by norm_num), FP.IEEE.widen_rnd m2 (by norm_num),
    FP.IEEE.widen_rnd es (by norm_num), FP.IEEE.widen_rnd ei (by norm_num), FP.IEEE.widen_rnd r1 (by norm_num),
    FP.IEEE.widen_rnd r2 (by norm_num), FP.IEEE.widen_rnd r3 (by norm_num), FP.IEEE.widen_rnd g1 (by norm_num),
    FP.IEEE.widen_rnd g2 (by norm_num), FP.IEEE.widen_rnd g3 (by norm_num)]
  have qr : QS 48 0 ⟨rho, PUnit.kgPerM3, r⟩ := ⟨hr.size, hr.float, .inr (by norm_num [PUnit.kgPerM3, PUnit.base]), rfl⟩
  have qm : QS 48 0 ⟨mu, PUnit.pascalSecond, r⟩ :=
    ⟨hm.size, hm.float, .inr (by norm_num [PUnit.pascalSecond, PUnit.base]), rfl⟩
  refine (qm.div H qr (by norm_num)).bind fun nu snu => ?_
  refine (snu.div H hl (by norm_num)).bind fun d0 sd0 => ?_
  obtain ⟨ed, sd⟩ := sd0.toBase H (by norm_num) (by norm_num)
  rw [← ed]
  refine (hl.scale H (H.sized g3 (by norm_num)) (by norm_num)).bind fun den sden => ?_
  refine (hs.div H sden (by norm_num)).bind fun a sa => ?_
  refine (sd.div H ht (by norm_num)).bind fun b sb => ?_
  refine (sb.powFloat H (by linarith [third.1]) (by linarith [third.2]) (by norm_num) (by norm_num) (by decide +kernel)
    (by norm_num)).bind fun b3 sb3 => ?_
  refine (sa.mul H sb3 (by norm_num)).bind fun ab sab => ?_
  refine (sab.powFloat H (by linarith [b9.1]) (by linarith [b9.2]) (by norm_num) (by norm_num)
    (by rw [show (1 / (2 * (-0.18) + 7 / 3) : ℚ) = 75 / 148 by norm_num]; decide +kernel) (by norm_num)).bind fun gamma sg => ?_
  refine Same.bind (P := Sized 107) ⟨rfl, fun x e => ?_⟩ fun dh sdh => ?_
  · obtain ⟨-, rfl⟩ := pyDiv_eq_ok.mp e
    exact (c2.div (H.sized r3 (by norm_num))).mono (by norm_num)
  rw [FP.IEEE.widen_rnd sdh (by norm_num)]
  refine (sg.divNum H (H.sized k3 (by norm_num)) (by norm_num)).bind fun gc sgc => ?_
  refine (sg.scale H (H.sized sdh (by norm_num)) (by norm_num)).bind fun gd sgd => ?_
  refine (sgd.log H (by norm_num) (by norm_num)).bind fun lg slg => ?_
  have t1 := (H.sized k8 (by norm_num)).mul slg.size
  have t2 := (H.sf t1 (by norm_num)).add (H.sf k2 (by norm_num))
  rw [FP.IEEE.widen_rnd t1 (by norm_num), FP.IEEE.widen_rnd t2 (by norm_num)]
  refine (sgc.scale H (H.sized t2 (by norm_num)) (by norm_num)).bind fun x sx => ?_
  refine (sx.mul H ht (by norm_num)).bind fun y sy => ?_
  exact (sy.convert H ht.unit ht.off (by norm_num) (by norm_num) (by norm_num)).imp fun q h =>
    ⟨h.mag.mono (by norm_num), h.float⟩

private theorem blend_same (H : fp.IEEE κ) {br y0 y1 : ℝ} (hb : SF 50 br) (h1 : br < fp.rnd 0.3) (h0 : fp.rnd 0.1 < br)
    (s0 : SF 847 y0) (s1 : SF 847 y1) :
    npInterpR fp.widen br [(fp.rnd 0.1, y0), (fp.rnd 0.3, y1)] = npInterpR fp br [(fp.rnd 0.1, y0), (fp.rnd 0.3, y1)] := by
  have c1 : Sized 4 (0.1 : ℝ) := lit 4 (by norm_num) (by norm_num)
  have c3 : Sized 2 (0.3 : ℝ) := lit 2 (by norm_num) (by norm_num)
  have b1 := H.between c1 (by norm_num) (lo := 0.1) (hi := 0.1) (by norm_num) le_rfl le_rfl
  have b3 := H.between c3 (by norm_num) (lo := 0.3) (hi := 0.3) (by norm_num) le_rfl le_rfl
  have f1 : SF 4 (fp.rnd 0.1) := ⟨.inr (by rw [abs_of_pos (by linarith [b1.1])]; constructor <;> linarith [b1.1, b1.2]),
    H.isFloat c1 (by norm_num)⟩
  have fb : SF 4 br := ⟨.inr (by rw [abs_of_pos (by linarith [b1.1])]; constructor <;> linarith [b1.1, b3.2]), hb.float⟩
  have dx : Sized 3 (fp.rnd 0.3 - fp.rnd 0.1) := .inr (by
    rw [abs_of_pos (by linarith)]; constructor <;> linarith [b1.1, b1.2, b3.1, b3.2])
  have db := fb.sub f1
  have dy := s1.sub s0
  have q := (H.sized dy (by norm_num)).div (H.sized dx (by norm_num))
  have p := (H.sized q (by norm_num)).mul (H.sized db (by norm_num))
  have s := (H.sf p (by norm_num)).add s0
  simp only [npInterpR]
  rw [FP.IEEE.widen_rnd dx (by norm_num), FP.IEEE.widen_rnd db (by norm_num), FP.IEEE.widen_rnd dy (by norm_num),
    FP.IEEE.widen_rnd q (by norm_num), FP.IEEE.widen_rnd p (by norm_num), FP.IEEE.widen_rnd s (by norm_num)]

private theorem choice_same (H : fp.IEEE κ) {rhoMu : Py (ℝ × ℝ)} {laminar sound tube : Quantity} {sigma br : ℝ}
    (hrm : ∀ rm, rhoMu = .ok rm → SF 48 rm.1 ∧ SF 48 rm.2) (hl : QS 48 0 laminar) (hs : QS 106 0 sound)
    (ht : QS 20 20 tube) (hg : SF 102 sigma) (hb : SF 50 br) (h1 : br ≤ 0.75) :
    runUpChoiceR fp reg rhoMu laminar sound sigma tube br = runUpChoiceR fp.widen reg rhoMu laminar sound sigma tube br := by
  have c1 : Sized 4 (0.1 : ℝ) := lit 4 (by norm_num) (by norm_num)
  have c3 : Sized 2 (0.3 : ℝ) := lit 2 (by norm_num) (by norm_num)
  have hrm' : Same (fun rm => SF 48 rm.1 ∧ SF 48 rm.2) rhoMu rhoMu := ⟨rfl, hrm⟩
  unfold runUpChoiceR
  rw [FP.IEEE.widen_rnd c1 (by norm_num), FP.IEEE.widen_rnd c3 (by norm_num)]
  refine (Same.ite (P := fun _ => True) (fun _ => ?_) fun h3 => Same.ite (fun _ => ?_) fun h0 => ?_).1
  · exact (eq44_same H hl hs ht hg hb).imp fun _ _ => trivial
  · exact hrm'.bind fun rm h => (eq41_same H h.1 h.2 hl hs ht hg hb).imp fun _ _ => trivial
  · refine hrm'.bind fun rm h => (eq41_same H h.1 h.2 hl hs ht hg hb).bind fun q1 s1 =>
      (eq44_same H hl hs ht hg hb).bind fun q2 s2 => ?_
    rw [blend_same H hb (not_le.mp fun h => h3 ⟨h, h1⟩) (not_le.mp h0) s1 s2]
    exact .ok trivial

/-- `calculate_run_up` for a float blockage ratio, a diameter between 2^-20 and 2^20 in a unit between 2^-20 and 2^20 m and a state
of sensible size does not depend on what the arithmetic does outside the range of normal doubles. -/
theorem C131_run_up_same (H : fp.IEEE κ) (G : FloatGas ct) {br : ℝ} (hb : IsFloat br) (sb : Sized 50 br)
    (hD : FloatArg reg xD 20 20) (hT : FloatArgT reg xT) (hP : FloatArgT reg xP) :
    runUpR fp ct reg br xD xT xP species mech phase = runUpR fp.widen ct reg br xD xT xP species mech phase := by
  have hD' : Same (QS 20 20) (parseQ xD reg) (parseQ xD reg) := by
    refine ⟨rfl, fun q e => ?_⟩
    cases xD with
    | quantity q' => cases e; exact ⟨hD.2.1, hD.1, hD.2.2.2, hD.2.2.1⟩
    | pair m s =>
      simp only [parseQ] at e
      cases hs : reg.parse s with
      | none => rw [hs] at e; cases e
      | some u =>
        rw [hs] at e; cases e
        exact ⟨hD.2.1, hD.1, (hD.2.2 u hs).2, (hD.2.2 u hs).1⟩
    | other => cases e
  unfold runUpR
  by_cases hbr : br ≤ 0 ∨ 0.75 < br
  · rw [if_pos hbr, if_pos hbr]
  rw [if_neg hbr, if_neg hbr]
  refine (Same.bind (Q := fun _ => True) hD' fun d hd => (parse_same hT).bind fun t ht => (parse_same hP).bind fun p hp => ?_).1
  have arg : ∀ {q : Quantity}, QT 50 34 q → FloatArgT reg (.quantity q) := fun h => ⟨h.mag.float, h.mag.size, h.off, h.unit⟩
  rw [Flange.checkBaseR_same H ((QT.of_qs hd).mono (by norm_num) (by norm_num)), Flange.checkBaseR_same H ht,
    Flange.checkBaseR_same H hp, (hp.base H (by norm_num) (by norm_num)).1, (ht.base H (by norm_num) (by norm_num)).1]
  refine (Same.any _).bind fun _ _ => (Same.any _).bind fun _ _ => (Same.any _).bind fun _ _ => ?_
  refine (flame_same H G (arg ht) (arg hp)).bind fun laminar hl => ?_
  refine (Same.any _).bind fun _ _ => (Same.any _).bind fun u _ => (Same.any _).bind fun b _ => ?_
  refine Same.bind (P := Sized 48) ⟨rfl, fun x e => ?_⟩ fun ib hib => ?_
  · obtain ⟨-, rfl⟩ := pyInv_eq_ok.mp e
    exact (Sized.one.div (G.density b).size).mono (by norm_num)
  have sg := (G.density u).size.mul (H.sized hib (by norm_num))
  rw [FP.IEEE.widen_rnd hib (by norm_num)]
  dsimp only
  rw [FP.IEEE.widen_rnd sg (by norm_num)]
  refine (sound_same H G ?_ ?_).bind fun sound hs => ?_
  · exact arg ⟨(G.T b).mono (by norm_num), .inr (by norm_num [PUnit.kelvin, PUnit.base]), .inl rfl⟩
  · exact arg ⟨(G.P b).mono (by norm_num), .inr (by norm_num [PUnit.pascal, PUnit.base]), .inl rfl⟩
  rw [choice_same H (fun rm e => ?_) hl hs hd ((H.sf sg (by norm_num)).mono (by norm_num)) ⟨sb, hb⟩ (by
    rw [not_or, not_lt] at hbr; exact hbr.2)]
  · exact Same.any _
  · obtain ⟨g, -, e⟩ := bind_eq_ok.mp e
    obtain ⟨v, hv, e⟩ := bind_eq_ok.mp e
    cases e
    exact ⟨G.density g, G.viscosity g v hv⟩

/-- C119 in double precision with its limited range: the run-up distance. -/
theorem C131_run_up_accuracy (H : fp.IEEE κ) (Hm : fp.MonoIn) (G : FloatGas ct) {br T P S sigma c rho mu D : ℝ} {m M : ℕ}
    {w : PUnit} (fb : IsFloat br) (sb : Sized 50 br) (fD : FloatArg reg xD 20 20)
    (fT : IsFloat T) (sT : Sized 50 T) (fP : IsFloat P) (sP : Sized 50 P)
    (hD : DenotesM reg xD Dim.length D) (hw : UnitOf reg xD w)
    (hg : GasAnswersR fp ct reg species mech phase T P S sigma c rho mu)
    (T0 : 0 ≤ T) (P0 : 0 ≤ P) (S0 : 0 < S) (c0 : 0 < c) (D0 : 0 < D) (s1 : 1 < sigma) (r0 : 0 < rho) (m0 : 0 < mu)
    (m1 : 1 ≤ m) (hm : sigma ≤ m * (sigma - 1)) (M1 : 1 ≤ M) (hM : 1 ≤ M * br)
    (ho : br < 0.3 → Ordinary S sigma c (mu / rho) D ∧ Tame w S sigma c (mu / rho) D)
    (hu : smoothCount m M κ * ((1 : ℝ) / 2) ^ 53 ≤ 1) (h0 : 0 < br) (h1 : br ≤ 0.75) :
    ∃ q X1 X4, runUpR fp ct reg br xD (.quantity ⟨T, PUnit.kelvin, reg.id⟩) (.quantity ⟨P, PUnit.pascal, reg.id⟩)
        species mech phase = .ok q ∧ q.unit = w ∧
      Published41 S sigma c (mu / rho) D br X1 ∧ Published44 S sigma c D br X4 ∧
      (0.3 ≤ br → |q.phys - X4| ≤ roughCount m κ * (1 / 2) ^ 53 * X4) ∧
      (br ≤ 0.1 → |q.phys - X1| ≤ smoothCount m M κ * (1 / 2) ^ 53 * X1) ∧
      (0.1 < br → br < 0.3 →
        |q.phys - ((0.3 - br) / 0.2 * X1 + (br - 0.1) / 0.2 * X4)| ≤
          (smoothCount m M κ + 30) * (1 / 2) ^ 53 * (X1 + X4)) := by
  have kept : ∀ x, IsFloat x → Sized 50 x → fp.widen.rnd x = x := fun x hx sx => by
    rw [FP.IEEE.widen_rnd sx (by norm_num)]; exact H.exact x (sx.mono (by norm_num)) hx
  have sK : Sized 34 PUnit.kelvin.scale := .inr (by norm_num [PUnit.kelvin, PUnit.base])
  have sPa : Sized 34 PUnit.pascal.scale := .inr (by norm_num [PUnit.pascal, PUnit.base])
  have argT : ∀ T : ℝ, SF 50 T → FloatArgT reg (.quantity ⟨T, PUnit.kelvin, reg.id⟩) := fun T h => ⟨h.float, h.size, .inl rfl, sK⟩
  have argP : ∀ P : ℝ, SF 50 P → FloatArgT reg (.quantity ⟨P, PUnit.pascal, reg.id⟩) := fun P h => ⟨h.float, h.size, .inl rfl, sPa⟩
  rw [C131_run_up_same H G fb sb fD (argT T ⟨sT, fT⟩) (argP P ⟨sP, fP⟩)]
  refine C119_accuracy H.widen_accurate (H.widen_monotone Hm) (kept 1 .one (Sized.one.mono (by norm_num))) (kept br fb sb) hD hw
    ⟨?_⟩ T0 P0 S0 c0 D0 s1 r0 m0 m1 hm M1 hM ho hu h0 h1
  obtain ⟨g, u, b, u', a1, a2, a3, a4, a5, a6, a7, a8⟩ := hg.answers
  refine ⟨g, u, b, u', a1, a2, a3, a4, a5, a6, ?_, a8⟩
  rw [← C131_sound_speed_same H G (argT _ ((G.T b).mono (by norm_num))) (argP _ ((G.P b).mono (by norm_num)))]
  exact a7

/-- C119 in double precision with its limited range: other units give what a state within a few roundings gives in K and Pa. -/
theorem C131_run_up_units (H : fp.IEEE κ) (hu : ((κ : ℝ) + 10) * (1 / 2) ^ 53 ≤ 1 / 100) {T P : ℝ} {wT : PUnit}
    (fT : FloatArgT reg xT) (fP : FloatArgT reg xP)
    (hT : Denotes reg xT Dim.temperature T) (hwT : UnitOf reg xT wT) (o0 : 0 ≤ wT.offset) (o1 : wT.offset ≤ 300)
    (T0 : 0 ≤ T) (T1 : T ≤ 2000) (hP : DenotesM reg xP Dim.pressure P) (P0 : 0 ≤ P) :
    ∃ T' P', |T' - T| ≤ 2040 * (κ * (1 / 2) ^ 53) + 4400 * (1 / 2) ^ 53 ∧ |P' - P| ≤ (2 * κ + 2) * (1 / 2) ^ 53 * P ∧
      ∀ (ct : Cantera) (br : ℝ) (xD : QIn) (species : ct.Species) (mech phase : String),
        runUpR fp ct reg br xD xT xP species mech phase =
          runUpR fp ct reg br xD (.quantity ⟨T', PUnit.kelvin, reg.id⟩) (.quantity ⟨P', PUnit.pascal, reg.id⟩)
            species mech phase := by
  have A := H.widen_accurate
  obtain ⟨qT, e1, d1, v1, g1⟩ := parse_any hT
  obtain ⟨qP, e2, v2⟩ := parse_spec hP
  have wq : qT.unit = wT := Tube.unit_of_parse e1 hwT
  have php : qP.phys = P := by rw [phys, v2.off, add_zero]; exact v2.val
  have ku0 : (0 : ℝ) ≤ κ * (1 / 2) ^ 53 := by positivity
  have nP := Near.abs A.nonneg A.lt_one (by push_cast; linarith) (Flange.pressure_near A v2.off php)
  have nT := baseR_err A hu v1 T0 T1 (by rw [wq]; exact o0) (by rw [wq]; exact o1)
  rw [(((parse_same fT).2 qT e1).base H (by norm_num) (by norm_num)).1] at nT
  rw [abs_of_nonneg P0, (((parse_same fP).2 qP e2).base H (by norm_num) (by norm_num)).1] at nP
  refine ⟨qT.baseR fp, qP.baseR fp, nT, nP.trans_eq (by push_cast; ring), fun ct br xD species mech phase => ?_⟩
  have cT : Flange.checkBaseR fp qT "temperature" = Flange.checkBaseR fp ⟨qT.baseR fp, PUnit.kelvin, reg.id⟩ "temperature" := by
    simp only [Flange.checkBaseR, baseR_kelvin, d1, g1]; rfl
  have cP : Flange.checkBaseR fp qP "pressure" = Flange.checkBaseR fp ⟨qP.baseR fp, PUnit.pascal, reg.id⟩ "pressure" := by
    simp only [Flange.checkBaseR, baseR_pascal, v2.dim, v2.reg]; rfl
  have sT : parseQ (.quantity qT) reg = .ok qT := by rw [parseQ, ← g1]
  have sP : parseQ (.quantity qP) reg = .ok qP := by rw [parseQ, ← v2.reg]
  simp only [runUpR, laminarFlameSpeedR, e1, e2, parseQ_self, ok_bind, cT, cP, baseR_kelvin, baseR_pascal, sT, sP]

end DDT

namespace Thermochem
variable {fp : FP} {κ : ℕ} {ct : Cantera} {reg : Registry} {species : ct.Species} {mech phase : String}

/-- C120 in double precision with its limited range: the equilibrium sound speed. -/
theorem C131_sound_speed_accuracy (H : fp.IEEE κ) (G : FloatGas ct) {T P : ℝ} (fT : IsFloat T) (sT : Sized 50 T)
    (fP : IsFloat P) (sP : Sized 50 P) (T0 : 0 ≤ T) (P0 : 0 ≤ P) {g : ct.Gas} {after : ℝ → ct.Gas} (p0 : 0 < ct.P g)
    (hg : ∃ g0 g1, ct.solution mech phase = .ok g0 ∧ ct.setTPX g0 T P species = .ok g1 ∧ ct.equilibrate g1 "TP" = .ok g)
    (ha : ∀ p, ct.P g < p → ct.density g < ct.density (after p) ∧
      ∃ g3, ct.setSP g (ct.s g) p = .ok g3 ∧ ct.equilibrate g3 "SP" = .ok (after p)) :
    ∃ p c, eqSoundSpeedR fp ct reg (.quantity ⟨T, PUnit.kelvin, reg.id⟩) (.quantity ⟨P, PUnit.pascal, reg.id⟩)
        species mech phase = .ok ⟨c, PUnit.meterPerSecond, reg.id⟩ ∧
      |p - 1.0001 * ct.P g| ≤ 3 * (1 / 2) ^ 53 * ct.P g ∧ ct.P g < p ∧
      |c - Real.sqrt ((p - ct.P g) / (ct.density (after p) - ct.density g))| ≤
        8 * (1 / 2) ^ 53 * Real.sqrt ((p - ct.P g) / (ct.density (after p) - ct.density g)) := by
  have argT : FloatArgT reg (.quantity ⟨T, PUnit.kelvin, reg.id⟩) :=
    ⟨fT, sT, .inl rfl, .inr (by norm_num [PUnit.kelvin, PUnit.base])⟩
  have argP : FloatArgT reg (.quantity ⟨P, PUnit.pascal, reg.id⟩) :=
    ⟨fP, sP, .inl rfl, .inr (by norm_num [PUnit.pascal, PUnit.base])⟩
  rw [C131_sound_speed_same H G argT argP]
  exact C120_sound_speed H.widen_accurate (by norm_num) T0 P0 p0 hg ha

end Thermochem

/-! ### Cases with an arithmetic that overflows and underflows -/

/-- A gas with five states: fresh, set, burned, equilibrated and compressed. -/
noncomputable def fiveGas : Cantera where
  Gas := Fin 5
  Species := Unit
  solution _ _ := .ok 0
  setTPX _ _ _ _ := .ok 1
  setTD _ _ _ := .ok 1
  setSP _ _ _ := .ok 3
  equilibrate _ mode := .ok (if mode = "HP" then 2 else if mode = "TP" then 3 else 4)
  T _ := 2000
  P _ := 100000
  density := ![1, 2, 1, 1, 1 + 1 / 131072]
  s _ := 0
  enthalpy _ := 0
  viscosity _ := .ok (1 / 4096)
  X _ := ()
  flameSpeed _ := .ok 1

private theorem fiveGas_floats : FloatGas fiveGas where
  T _ := (⟨.inr (by norm_num), 2000, 0, by norm_num, by norm_num⟩ : SF 48 (2000 : ℝ))
  P _ := (⟨.inr (by norm_num), 100000, 0, by norm_num, by norm_num⟩ : SF 48 (100000 : ℝ))
  density g := by
    have key : ∀ g : Fin 5, SF 48 ((![1, 2, 1, 1, 1 + 1 / 131072] : Fin 5 → ℝ) g) := by
      intro g
      refine ⟨.inr ?_, ?_⟩
      · fin_cases g <;> norm_num
      · fin_cases g
        · exact ⟨1, 0, by norm_num, by norm_num⟩
        · exact ⟨2, 0, by norm_num, by norm_num⟩
        · exact ⟨1, 0, by norm_num, by norm_num⟩
        · exact ⟨1, 0, by norm_num, by norm_num⟩
        · exact ⟨131073, -17, by norm_num, by norm_num⟩
    exact key g
  viscosity g v e := by
    cases e
    exact ⟨.inr (by norm_num), 1, -12, by norm_num, by norm_num⟩
  flameSpeed g v e := by
    cases e
    exact SF.one.mono (by norm_num)

private theorem nat_arg (k : ℕ) (h0 : 0 < k) (h1 : k < 2 ^ 50) : IsFloat (k : ℝ) ∧ Sized 50 (k : ℝ) := by
  refine ⟨.nat (h1.trans (by norm_num)), ?_⟩
  have := Flange.sized_int (n := 50) (k := (k : ℤ)) (by rw [abs_of_nonneg (by positivity)]; exact_mod_cast h1.le)
  simpa using this

/-- A tube of 1 m with a blockage ratio of one half, with arithmetic that overflows and underflows. -/
example (reg : Registry) : ∃ c q X, |c - 1144.9| ≤ 1 ∧
    DDT.runUpR FP.clamped fiveGas reg (1 / 2) (.quantity ⟨1, PUnit.meter, 0⟩) (.quantity ⟨300, PUnit.kelvin, reg.id⟩)
      (.quantity ⟨100000, PUnit.pascal, reg.id⟩) () "gri30.cti" "" = .ok q ∧
    DDT.Published44 1 2 c 1 (1 / 2) X ∧ |q.phys - X| ≤ 1 / 10 ^ 13 * X := by
  have n300 := nat_arg 300 (by norm_num) (by norm_num)
  have n1e5 := nat_arg 100000 (by norm_num) (by norm_num)
  have n2000 := nat_arg 2000 (by norm_num) (by norm_num)
  push_cast at n300 n1e5 n2000
  obtain ⟨p, c, e, hp, hp', hc⟩ := Thermochem.C131_sound_speed_accuracy (fp := FP.clamped) (κ := 1) (ct := fiveGas) (reg := reg)
    (species := ()) (mech := "gri30.cti") (phase := "") (T := 2000) (P := 100000) (g := (3 : Fin 5))
    (after := fun _ => (4 : Fin 5)) FP.clamped_ieee fiveGas_floats n2000.1 n2000.2 n1e5.1 n1e5.2 (by norm_num) (by norm_num)
    (by change (0 : ℝ) < 100000; norm_num) ⟨_, _, rfl, rfl, rfl⟩
    (fun p _ => ⟨by change (1 : ℝ) < 1 + 1 / 131072; norm_num, _, rfl, rfl⟩)
  change |c - Real.sqrt ((p - 100000) / (1 + 1 / 131072 - 1))| ≤
    8 * (1 / 2) ^ 53 * Real.sqrt ((p - 100000) / (1 + 1 / 131072 - 1)) at hc
  change |p - 1.0001 * 100000| ≤ 3 * (1 / 2) ^ 53 * 100000 at hp
  have hp2 := abs_le.mp hp
  norm_num at hp2
  have r1 : 1144 ≤ Real.sqrt ((p - 100000) / (1 + 1 / 131072 - 1)) := by
    rw [Real.le_sqrt' (by norm_num), le_div_iff₀ (by norm_num)]; norm_num; linarith
  have r2 : Real.sqrt ((p - 100000) / (1 + 1 / 131072 - 1)) ≤ 1145 := by
    refine Real.sqrt_le_iff.mpr ⟨by norm_num, ?_⟩
    rw [div_le_iff₀ (by norm_num)]; norm_num; linarith
  generalize Real.sqrt ((p - 100000) / (1 + 1 / 131072 - 1)) = r at *
  have hc2 := abs_le.mp hc
  norm_num at hc2
  have c1 : 1143.95 ≤ c := by norm_num; linarith
  have c2 : c ≤ 1145.5 := by norm_num; linarith
  have hb : IsFloat (1 / 2 : ℝ) := .half
  obtain ⟨q, X1, X4, e', -, -, h4, h5, -, -⟩ := DDT.C131_run_up_accuracy (fp := FP.clamped) (κ := 1) (ct := fiveGas) (reg := reg)
    (species := ()) (mech := "gri30.cti") (phase := "") (T := 300) (P := 100000) (S := 1) (sigma := 2) (c := c) (rho := 2)
    (mu := 1 / 4096) (D := 1) (m := 2) (M := 2) (br := 1 / 2) (w := PUnit.meter) (xD := .quantity ⟨1, PUnit.meter, 0⟩)
    FP.clamped_ieee FP.clamped_mono fiveGas_floats hb (.inr (by norm_num))
    ⟨.one, Sized.one.mono (by norm_num), rfl, .inr (by norm_num [PUnit.meter, PUnit.base])⟩ n300.1 n300.2 n1e5.1 n1e5.2
    ⟨⟨rfl, by norm_num [PUnit.meter, PUnit.base]⟩, rfl⟩ rfl
    ⟨⟨(0 : Fin 5), (1 : Fin 5), (2 : Fin 5), (1 : Fin 5), rfl, rfl, rfl, rfl,
      by change (1 : ℝ) ≠ 0; norm_num, by change (2 : ℝ) = 2 / 1; norm_num, e, rfl, rfl, rfl⟩⟩
    (by norm_num) (by norm_num) (by norm_num) (by linarith) (by norm_num) (by norm_num) (by norm_num) (by norm_num)
    (by norm_num) (by norm_num) (by norm_num) (by norm_num) (fun h => absurd h (by norm_num)) (by norm_num [DDT.smoothCount])
    (by norm_num) (by norm_num)
  refine ⟨c, q, X4, by rw [abs_le]; constructor <;> norm_num <;> linarith, e', h4, ?_⟩
  have X0 : 0 ≤ X4 := by
    unfold DDT.Published44 at h4
    by_contra hneg
    have : 20 / c * X4 < 0 := mul_neg_of_pos_of_neg (div_pos (by norm_num) (by linarith)) (not_le.mp hneg)
    norm_num at h4
    linarith
  refine (h5 (by norm_num)).trans (mul_le_mul_of_nonneg_right (by norm_num [DDT.roughCount]) X0)

/-- The stress of every material of seamless pipe at 300 degrees Celsius. -/
example (reg : Registry) {i : ℕ} {material : String} (hi : (Tube.stressCols false)[i]? = some material) :
    ∃ s s', Tube.maxStress reg (.quantity ⟨300, PUnit.degC, 0⟩) material false = .ok ⟨s, PUnit.ksi, reg.id⟩ ∧
      Tube.maxStressR FP.clamped reg (.quantity ⟨300, PUnit.degC, 0⟩) material false = .ok ⟨s', PUnit.ksi, reg.id⟩ ∧
      |s' - s| ≤ 1e-12 := by
  have n300 := nat_arg 300 (by norm_num) (by norm_num)
  push_cast at n300
  obtain ⟨s, s', e, e', h⟩ := Tube.C131_max_stress_accuracy (fp := FP.clamped) (κ := 1) (reg := reg)
    (x := .quantity ⟨300, PUnit.degC, 0⟩) (t := 572) (welded := false) (w := PUnit.degC) FP.clamped_ieee (by norm_num)
    ⟨n300.1, n300.2, Sized.mono (n := 9) (.inr (by norm_num [PUnit.degC])) (by norm_num), .inr (by norm_num [PUnit.degC])⟩
    ⟨rfl, by norm_num [PUnit.degC]⟩ rfl (by norm_num [PUnit.degC]) (by norm_num [PUnit.degC]) (by norm_num) (by norm_num) hi
  exact ⟨s, s', e, e', h.trans (by norm_num)⟩

open Flange in
/-- The largest pressure of a class 900 flange of stainless steel 304 at 400 degrees Celsius. -/
example (u : Registry) : ∃ q t' p, getMaxPressureR FP.clamped u "900" (.quantity ⟨400, PUnit.degC, 0⟩) (.str "304") = .ok q ∧
    |t' - 400| ≤ 1 / 10 ^ 11 ∧ On (curveOf 4 Data.group21Rows) t' p ∧
    |q.mag - p * 100000| ≤ 2 / 10 ^ 15 * |p * 100000| := by
  have hc : IsCurve "304" "900" (curveOf 4 Data.group21Rows) :=
    ⟨("304", "2.1", 200, 78, 28), by decide, rfl, _, List.mem_cons_self, rfl, 4, rfl, rfl⟩
  have hx : IsDegC u (.quantity ⟨400, PUnit.degC, 0⟩) 400 := ⟨rfl, by norm_num [PUnit.degC]⟩
  have n400 := nat_arg 400 (by norm_num) (by norm_num)
  push_cast at n400
  have fx : FloatArgT u (.quantity ⟨400, PUnit.degC, 0⟩) :=
    ⟨n400.1, n400.2, Sized.mono (n := 9) (.inr (by norm_num [PUnit.degC])) (by norm_num), .inr (by norm_num [PUnit.degC])⟩
  have ho : On (curveOf 4 Data.group21Rows) 400 85.3 := by
    refine ⟨curveOf 4 (Data.group21Rows.take 11), (400, 85.3), (425, 84), curveOf 4 (Data.group21Rows.drop 13),
      ?_, by norm_num, by norm_num, by norm_num⟩
    norm_num [curveOf, Data.group21Rows, cellBar]
  obtain ⟨q, hq⟩ := (C131_pressure_range_degC FP.clamped_ieee fx hc hx rfl).1 ⟨_, ho⟩
  obtain ⟨t', p, h1, h2, h3, -⟩ := C131_pressure FP.clamped_ieee FP.clamped_mono (by norm_num) fx hc hx
    (w := PUnit.degC) rfl (by norm_num [PUnit.degC]) (by norm_num [PUnit.degC]) (by norm_num) (by norm_num) hq
  refine ⟨q, t', p, hq, h1.trans ?_, h2, h3.trans ?_⟩
  · norm_num [shift]
  · exact mul_le_mul_of_nonneg_right (by norm_num) (abs_nonneg _)

end Pypbomb
