/-
Property C121: infinite arguments.  A call with an infinite argument returns the limit of the calls with ever larger
numbers in its place, or NaN, or raises; it never returns another number.
-/
import Verif.Lemmas.Inf
import Verif.Props.Bolt
import Verif.Props.Tube
import Verif.Props.TubeTables
import Verif.Props.DDT
import Verif.Props.Window

namespace Pypbomb
open QX Filter Topology

/-! ### Vocabulary -/

/-- As `Denotes`, with any float: a quantity of dimension `d` that is `v` in SI base units. -/
def DenotesX (reg : Registry) (x : XIn) (d : Dim) (v : Xf) : Prop :=
  match x with
  | .quantity q => q.unit.dim = d ∧ q.mag.affine q.unit.scale q.unit.offset = v
  | .pair m s => ∃ u, reg.parse s = some u ∧ u.dim = d ∧ m.affine u.scale u.offset = v
  | .other => False

/-- The argument with the number `t` in place of its magnitude (same unit). -/
def XIn.at (x : XIn) (t : ℝ) : QIn :=
  match x with
  | .quantity q => .quantity ⟨t, q.unit, q.reg⟩
  | .pair _ s => .pair t s
  | .other => .other

/-- `v` is the limit of the values `f t` returns as `t` grows (for all large `t` the call returns). -/
def LimitAt (f : ℝ → Py ℝ) : Xf → Prop
  | .fin a => ∀ ε > 0, ∃ X, ∀ t ≥ X, ∃ y, f t = .ok y ∧ |y - a| < ε
  | .pinf => ∀ B, ∃ X, ∀ t ≥ X, ∃ y, f t = .ok y ∧ B < y
  | .ninf => ∀ B, ∃ X, ∀ t ≥ X, ∃ y, f t = .ok y ∧ y < B
  | .nan => False

theorem limit_fin {f : ℝ → Py ℝ} {g : ℝ → ℝ} {a : ℝ} (hf : ∀ᶠ t in atTop, f t = .ok (g t))
    (hg : Tendsto g atTop (𝓝 a)) : LimitAt f (.fin a) := by
  intro ε hε
  have h2 : ∀ᶠ t in atTop, |g t - a| < ε := (Metric.tendsto_nhds.mp hg) ε hε
  obtain ⟨X, hX⟩ := eventually_atTop.mp (hf.and h2)
  exact ⟨X, fun t ht => ⟨g t, (hX t ht).1, (hX t ht).2⟩⟩

theorem limit_pinf {f : ℝ → Py ℝ} {g : ℝ → ℝ} (hf : ∀ᶠ t in atTop, f t = .ok (g t))
    (hg : Tendsto g atTop atTop) : LimitAt f .pinf := by
  intro B
  obtain ⟨X, hX⟩ := eventually_atTop.mp (hf.and (hg.eventually_gt_atTop B))
  exact ⟨X, fun t ht => ⟨g t, (hX t ht).1, (hX t ht).2⟩⟩

theorem limit_ninf {f : ℝ → Py ℝ} {g : ℝ → ℝ} (hf : ∀ᶠ t in atTop, f t = .ok (g t))
    (hg : Tendsto g atTop atBot) : LimitAt f .ninf := by
  intro B
  obtain ⟨X, hX⟩ := eventually_atTop.mp (hf.and (hg.eventually_lt_atBot B))
  exact ⟨X, fun t ht => ⟨g t, (hX t ht).1, (hX t ht).2⟩⟩

/-- A limit is unique, so `LimitAt` says which float is right. -/
theorem limit_unique {f : ℝ → Py ℝ} {v w : Xf} (hv : LimitAt f v) (hw : LimitAt f w) : v = w := by
  have both : ∀ {P Q : ℝ → Prop}, (∃ X, ∀ t ≥ X, ∃ y, f t = .ok y ∧ P y) → (∃ X, ∀ t ≥ X, ∃ y, f t = .ok y ∧ Q y) →
      ∃ y, P y ∧ Q y := by
    rintro P Q ⟨X, hX⟩ ⟨Y, hY⟩
    obtain ⟨y, e, hy⟩ := hX (max X Y) (le_max_left _ _)
    obtain ⟨z, e', hz⟩ := hY (max X Y) (le_max_right _ _)
    rw [e] at e'; cases e'
    exact ⟨y, hy, hz⟩
  cases v with
  | nan => exact hv.elim
  | pinf =>
    cases w with
    | nan => exact hw.elim
    | pinf => rfl
    | ninf => obtain ⟨y, h1, h2⟩ := both (hv 0) (hw 0); linarith
    | fin b => obtain ⟨y, h1, h2⟩ := both (hv (b + 1)) (hw 1 one_pos); have := abs_lt.mp h2; linarith [this.2]
  | ninf =>
    cases w with
    | nan => exact hw.elim
    | pinf => obtain ⟨y, h1, h2⟩ := both (hv 0) (hw 0); linarith
    | ninf => rfl
    | fin b => obtain ⟨y, h1, h2⟩ := both (hv (b - 1)) (hw 1 one_pos); have := abs_lt.mp h2; linarith [this.1]
  | fin a =>
    cases w with
    | nan => exact hw.elim
    | pinf => obtain ⟨y, h1, h2⟩ := both (hv 1 one_pos) (hw (a + 1)); have := abs_lt.mp h1; linarith [this.2]
    | ninf => obtain ⟨y, h1, h2⟩ := both (hv 1 one_pos) (hw (a - 1)); have := abs_lt.mp h1; linarith [this.1]
    | fin b =>
      by_contra hne
      have hab : 0 < |a - b| := abs_pos.mpr (sub_ne_zero.mpr fun h => hne (by rw [h]))
      obtain ⟨y, h1, h2⟩ := both (hv (|a - b| / 2) (by positivity)) (hw (|a - b| / 2) (by positivity))
      have : |a - b| ≤ |y - a| + |y - b| := by
        calc |a - b| = |(y - b) - (y - a)| := by congr 1; ring
          _ ≤ |y - b| + |y - a| := abs_sub _ _
          _ = _ := add_comm _ _
      linarith

/-! ### On numbers the functions are those of the other files -/

section Agree
variable {reg : Registry}

theorem C121_window_agrees (l w t p m : QIn) :
    Window.safetyFactorX reg (.ofQIn l) (.ofQIn w) (.ofQIn t) (.ofQIn p) (.ofQIn m) =
      (Window.safetyFactor reg l w t p m).map .fin := by
  unfold Window.safetyFactorX Window.safetyFactor Window.safetyFactorFormulaX Window.safetyFactorFormula
  simp only [ofQIn_parseX, bind_map', map_bind', ofQ_toBase, ofQ_checkX, ofQ_div, ofQ_mul, ofQ_pow, ofQ_scale,
    ofQ_addNum, ofQ_toNumber]

theorem C121_thickness_agrees (l w p m : QIn) (sf : ℝ) :
    Window.minimumThicknessX reg (.ofQIn l) (.ofQIn w) (.fin sf) (.ofQIn p) (.ofQIn m) =
      (Window.minimumThickness reg l w (.num sf) p m).map ofQ := by
  unfold Window.minimumThicknessX Window.minimumThickness Window.thicknessFormulaX Window.thicknessFormula
  simp only [ofQIn_parseX, bind_map', map_bind', ofQ_toBase, ofQ_checkX, ofQ_div, ofQ_mul, ofQ_pow, ofQ_scale,
    ofQ_addNum, ofQ_convert, Xf.lt_fin, Xf.mul_fin, Xf.div_fin, Xf.sqrt_fin, decide_eq_true_eq, map_ite', map_err',
    ofQ_unit]

theorem C121_blockage_diameter_agrees (x : QIn) (br : ℝ) :
    DDT.blockageDiameterX reg (.ofQIn x) (.fin br) = (DDT.blockageDiameter reg x (.num br)).map ofQ := by
  unfold DDT.blockageDiameterX DDT.blockageDiameter
  simp only [ofQIn_parseX, bind_map', map_bind', ofQ_checkX, ofQ_scale, ofQ_divNum, Xf.lt_fin, Xf.sub_fin, Xf.sqrt_fin,
    decide_eq_true_eq, map_ite', map_err', ok_bind]

theorem C121_blockage_ratio_agrees (x y : QIn) :
    DDT.blockageRatioX reg (.ofQIn x) (.ofQIn y) = (DDT.blockageRatio reg x y).map .fin := by
  unfold DDT.blockageRatioX DDT.blockageRatio
  simp only [ofQIn_parseX, bind_map', map_bind', ofQ_toBase, ofQ_checkX, ofQ_mag, Xf.fin_inj, ofQ_ge,
    map_ite', map_err', Xf.sub_fin, Xf.mul_fin, Xf.div_fin, map_ok', pow_two]

theorem C121_max_stress_agrees (x : QIn) (material : String) (welded : Bool) :
    Tube.maxStressX reg (.ofQIn x) material welded = (Tube.maxStress reg x material welded).map ofQ := by
  unfold Tube.maxStressX Tube.maxStress
  simp only [ofQIn_parseX, bind_map', map_bind', ofQ_mag, ofQ_convert, map_ite', map_err', Tube.interpX, map_ok',
    mk_fin]

theorem C121_max_pressure_agrees (id od stress : Quantity) (sf : ℝ) :
    Tube.maxPressureX (ofQ id) (ofQ od) (ofQ stress) (.fin sf) = (Tube.maxPressure id od stress sf).map ofQ := by
  unfold Tube.maxPressureX Tube.maxPressure
  simp only [bind_map', map_bind', ofQ_add, ofQ_sub, ofQ_divNum, ofQ_scale, ofQ_mul, ofQ_div]

theorem crit_agreesX (id od modulus density : Quantity) (nu : ℝ) :
    Tube.critVelocityX (ofQ id) (ofQ od) (ofQ modulus) (ofQ density) (.fin nu) =
      (Tube.critVelocity id od modulus density nu).map ofQ := by
  unfold Tube.critVelocityX Tube.critVelocity
  simp only [bind_map', map_bind', ofQ_add, ofQ_sub, ofQ_divNum, ofQ_scale, ofQ_mul, ofQ_div, ofQ_pow, Xf.sub_fin,
    Xf.mul_fin, pow_two]

theorem C122_dlf_agrees (id od v e d : QIn) (nu pm : ℝ) :
    Tube.dynamicLoadFactorX (.ofQIn id) (.ofQIn od) (.ofQIn v) (.ofQIn e) (.ofQIn d) (.fin nu) (.fin pm) =
      Tube.dynamicLoadFactor id od v e d nu pm := by
  unfold Tube.dynamicLoadFactorX Tube.dynamicLoadFactor
  simp only [ofQIn_checkedX, bind_map', crit_agreesX, ofQ_scale, ofQ_convert, Xf.sub_fin, Xf.add_fin, Xf.lt_fin,
    decide_eq_true_eq, ofQ_mag]

theorem shearArea_agreesX (a b c d e : Quantity) :
    Bolt.shearAreaX (ofQ a) (ofQ b) (ofQ c) (ofQ d) (ofQ e) = (Bolt.shearArea a b c d e).map ofQ := by
  unfold Bolt.shearAreaX Bolt.shearArea
  simp only [bind_map', map_bind', ofQ_add, ofQ_sub, ofQ_rdiv, ofQ_scale, ofQ_mul]

theorem tensileArea_agreesX (a b c d : Quantity) :
    Bolt.tensileAreaX reg (ofQ a) (ofQ b) (ofQ c) (ofQ d) = (Bolt.tensileArea reg a b c d).map ofQ := by
  unfold Bolt.tensileAreaX Bolt.tensileArea
  simp only [mk_fin, bind_map', map_bind', map_ite', ofQ_lt, ofQ_sub, ofQ_rdiv, ofQ_scale, ofQ_divNum, ofQ_pow]

theorem minEngagement_agreesX (a b c d e : Quantity) :
    Bolt.minEngagementX (ofQ a) (ofQ b) (ofQ c) (ofQ d) (ofQ e) = (Bolt.minEngagement a b c d e).map ofQ := by
  unfold Bolt.minEngagementX Bolt.minEngagement
  simp only [bind_map', map_bind', ofQ_addNum, ofQ_sub, ofQ_div, ofQ_scale, ofQ_mul]

/-- The areas as floats. -/
def liftAreasX (a : Bolt.Areas) : Bolt.AreasX := ⟨ofQ a.plate, ofQ a.screw, ofQ a.minEngagement, a.warned⟩

theorem C121_areas_agree (size cls : String) (sb sp len : QIn) :
    Bolt.stressAreasX reg size cls (.ofQIn sb) (.ofQIn sp) (.ofQIn len) =
      (Bolt.stressAreas reg size cls sb sp len).map liftAreasX := by
  unfold Bolt.stressAreasX Bolt.stressAreas
  have hr : ∀ q, Bolt.reregX reg (ofQ q) = ofQ (Bolt.rereg reg q) := fun _ => rfl
  have hi : ∀ (c : Bool) (q q' : Quantity), (if c = true then ofQ q else ofQ q') = ofQ (if c = true then q else q') := by
    intro c q q'; split <;> rfl
  cases parseDigits (splitLast '-' size) <;>
  simp only [ofQIn_checkArgX, bind_map', map_bind', hr, mk_fin, tensileArea_agreesX, shearArea_agreesX, ofQ_lt,
    ofQ_mul, ofQ_div, minEngagement_agreesX, map_ok', map_err', liftAreasX, hi, ok_bind, err_bind]

theorem C121_safety_factors_agree (p a sb sp len : QIn) (n : ℝ) (size cls : String) :
    Bolt.safetyFactorsX reg (.ofQIn p) (.ofQIn a) (.fin n) size cls (.ofQIn sb) (.ofQIn sp) (.ofQIn len) =
      (Bolt.safetyFactors reg p a n size cls sb sp len).map fun x => (.fin x.1, .fin x.2) := by
  unfold Bolt.safetyFactorsX Bolt.safetyFactors
  have hr : ∀ q, Bolt.reregX reg (ofQ q) = ofQ (Bolt.rereg reg q) := fun _ => rfl
  have ha : ∀ a b c : Quantity, Bolt.stressAreasX reg size cls (.quantity (ofQ a)) (.quantity (ofQ b))
      (.quantity (ofQ c)) = (Bolt.stressAreas reg size cls (.quantity a) (.quantity b) (.quantity c)).map liftAreasX :=
    fun a b c => C121_areas_agree size cls (.quantity a) (.quantity b) (.quantity c)
  simp only [ofQIn_parseX, bind_map', map_bind', ofQ_checkX, mk_fin, ofQ_sub, ofQ_mul, ofQ_divNum, ofQ_div,
    ofQ_toNumber, ha, liftAreasX, hr, map_ok']

theorem checkRange_agreesX (q : Quantity) (lo hi : ℝ) (u : PUnit) (r : ℕ) (msg : String) :
    Flange.checkRangeX (ofQ q) lo hi u r msg = Flange.checkRange q lo hi u r msg := by
  unfold Flange.checkRangeX Flange.checkRange
  simp only [mk_fin, ofQ_lt]

theorem checkMax_agreesX (q : Quantity) (m : ℝ) (r : ℕ) :
    Flange.checkMaxPressureX (ofQ q) m r = Flange.checkMaxPressure q m r := by
  unfold Flange.checkMaxPressureX Flange.checkMaxPressure
  simp only [mk_fin, ofQ_lt]

private theorem withLimits_map' {α β : Type} (f : α → β) (g : List (String × Flange.Frame) → Py α) :
    (Flange.withLimits g).map f = Flange.withLimits fun l => (g l).map f := by
  unfold Flange.withLimits; rw [map_bind']

theorem outReg_agreesX (u : Registry) (x : QIn) : Flange.outRegX u (.ofQIn x) = Flange.outReg u x := by
  cases x <;> rfl

theorem C121_get_class_agrees (u : Registry) (p t : QIn) (m : Tube.MatIn) :
    Flange.getClassX u reg (.ofQIn p) (.ofQIn t) m = Flange.getClass u reg p t m := by
  have hp : ∀ q : Quantity, parseX (.quantity (ofQ q)) u = (parseQ (.quantity q) u).map ofQ := fun _ => rfl
  have hf : ∀ f t p, Flange.firstClassX f t (.fin p) = Flange.firstClass f t p := by
    intro f t p; unfold Flange.firstClassX Flange.firstClass
    simp only [Xf.le_fin]; congr!
  unfold Flange.getClassX Flange.getClass
  simp only [ofQIn_parseX, bind_map', ofQ_checkX, hp, checkMax_agreesX, checkRange_agreesX, ofQ_phys, Flange.indexX,
    ok_bind, hf]

theorem C121_flange_max_pressure_agrees (u : Registry) (cls : String) (t : QIn) (m : Tube.MatIn) :
    Flange.getMaxPressureX u cls (.ofQIn t) m = (Flange.getMaxPressure u cls t m).map ofQ := by
  unfold Flange.getMaxPressureX Flange.getMaxPressure
  simp only [withLimits_map', ofQIn_parseX, bind_map', map_bind', checkRange_agreesX, ofQ_phys, Flange.indexX, ok_bind,
    map_ite', map_err', map_ok', outReg_agreesX, mk_fin]

theorem C121_flange_max_temperature_agrees (u : Registry) (cls : String) (p : QIn) (m : Tube.MatIn) :
    Flange.getMaxTemperatureX u cls (.ofQIn p) m = (Flange.getMaxTemperature u cls p m).map ofQ := by
  unfold Flange.getMaxTemperatureX Flange.getMaxTemperature
  simp only [withLimits_map', ofQIn_parseX, bind_map', map_bind', checkRange_agreesX, ofQ_phys, Flange.indexX, ok_bind,
    map_ite', map_err', map_ok', outReg_agreesX, mk_fin]

end Agree

/-! ### Arguments -/

section Args
variable {reg : Registry} {kind : String} {d : Dim}

theorem denotesX_fin {x : QIn} {v : ℝ} (h : Denotes reg x d v) : DenotesX reg (.ofQIn x) d (.fin v) := by
  cases x with
  | quantity q => exact ⟨h.1, by simp [ofQ, h.2]⟩
  | pair m s =>
    obtain ⟨u, h1, h2, h3⟩ := h
    exact ⟨u, h1, h2, by simp [h3]⟩
  | other => exact h.elim

/-- Parsing, conversion to base units and the sign check of a non-negative (possibly infinite) argument. -/
theorem base_parseX {x : XIn} {v : Xf} (hk : supportedDims.lookup kind = some d) (h : DenotesX reg x d v)
    (hv : v = .pinf ∨ ∃ y, 0 ≤ y ∧ v = .fin y) :
    ∃ q, parseX x reg = .ok q ∧ checkX q.toBase kind true = .ok () ∧ HasX q.toBase d v reg.id := by
  have main : ∀ (m : Xf) (u : PUnit), u.dim = d → m.affine u.scale u.offset = v →
      checkX (QX.toBase ⟨m, u, reg.id⟩) kind true = .ok () ∧ HasX (QX.toBase ⟨m, u, reg.id⟩) d v reg.id := by
    intro m u hd he
    refine ⟨?_, hd, rfl, ?_, rfl⟩
    · have e : (QX.toBase ⟨m, u, reg.id⟩) = ⟨v, PUnit.base u.dim, reg.id⟩ := by
        unfold QX.toBase QX.phys; rw [← he]
      rw [e]
      rcases hv with rfl | ⟨y, hy, rfl⟩
      · exact checkQ_ok hk hd (by simp [Quantity.phys, PUnit.base])
      · exact checkQ_ok hk hd (by simpa [Quantity.phys, PUnit.base] using hy)
    · show (m.affine u.scale u.offset).affine 1 0 = v
      rw [he]
      rcases hv with rfl | ⟨y, hy, rfl⟩ <;> simp
  cases x with
  | quantity q => exact ⟨⟨q.mag, q.unit, reg.id⟩, rfl, main q.mag q.unit h.1 h.2⟩
  | pair m s =>
    obtain ⟨u, h1, h2, h3⟩ := h
    exact ⟨⟨m, u, reg.id⟩, by simp [parseX, h1], main m u h2 h3⟩
  | other => exact h.elim

/-- The number `t` in place of an infinite magnitude: the value grows linearly. -/
theorem at_denotes {x : XIn} (h : DenotesX reg x d .pinf) :
    ∃ s o : ℝ, 0 < s ∧ ∀ t, Denotes reg (x.at t) d (t * s + o) := by
  cases x with
  | quantity q => exact ⟨q.unit.scale, q.unit.offset, q.unit.pos, fun t => ⟨h.1, rfl⟩⟩
  | pair m s =>
    obtain ⟨u, h1, h2, h3⟩ := h
    exact ⟨u.scale, u.offset, u.pos, fun t => ⟨u, h1, h2, rfl⟩⟩
  | other => exact h.elim

theorem line_atTop {s : ℝ} (hs : 0 < s) (o : ℝ) : Tendsto (fun t : ℝ => t * s + o) atTop atTop :=
  tendsto_atTop_add_const_right _ _ (tendsto_id.atTop_mul_const hs)

end Args

/-! ### Windows -/

section Window
variable {reg : Registry} {xL xW xT xP xM : QIn} {x : XIn} {L W T P M : ℝ}

private theorem windowX_eval {xL xW xT xP xM : XIn} {l w t p m : Xf}
    (hL : DenotesX reg xL Dim.length l) (hW : DenotesX reg xW Dim.length w) (hT : DenotesX reg xT Dim.length t)
    (hP : DenotesX reg xP Dim.pressure p) (hM : DenotesX reg xM Dim.pressure m)
    (l0 : l = .pinf ∨ ∃ y, 0 ≤ y ∧ l = .fin y) (w0 : w = .pinf ∨ ∃ y, 0 ≤ y ∧ w = .fin y)
    (t0 : t = .pinf ∨ ∃ y, 0 ≤ y ∧ t = .fin y) (p0 : p = .pinf ∨ ∃ y, 0 ≤ y ∧ p = .fin y)
    (m0 : m = .pinf ∨ ∃ y, 0 ≤ y ∧ m = .fin y) (w1 : w ≠ .fin 0) (l1 : l ≠ .fin 0)
    (p1 : (Xf.fin 0.75).mul p ≠ .fin 0) :
    Window.safetyFactorX reg xL xW xT xP xM =
      .ok (((((t.div l).mul (t.div l)).mul (((Xf.fin 2).mul m).mul ((Xf.fin 1).add ((l.div w).mul (l.div w)))))).div
        ((Xf.fin 0.75).mul p)) := by
  obtain ⟨q1, a1, c1, v1⟩ := base_parseX lookup_length hL l0
  obtain ⟨q2, a2, c2, v2⟩ := base_parseX lookup_length hW w0
  obtain ⟨q3, a3, c3, v3⟩ := base_parseX lookup_length hT t0
  obtain ⟨q4, a4, c4, v4⟩ := base_parseX lookup_pressure hP p0
  obtain ⟨q5, a5, c5, v5⟩ := base_parseX lookup_pressure hM m0
  obtain ⟨d1, e1, h1⟩ := v1.div v2 w1
  obtain ⟨d2, e2, h2⟩ := v3.div v1 l1
  obtain ⟨d3, e3, h3⟩ := h2.sq
  obtain ⟨d4, e4, h4⟩ := v5.scale (.fin 2)
  obtain ⟨d5, e5, h5⟩ := h1.sq
  obtain ⟨d6, e6, h6⟩ := (h5.cast (e := Dim.one) (by dims) rfl).addNum (.fin 1)
  obtain ⟨d7, e7, h7⟩ := h4.mul h6
  obtain ⟨d8, e8, h8⟩ := h3.mul h7
  obtain ⟨d9, e9, h9⟩ := v4.scale (.fin 0.75)
  obtain ⟨d10, e10, h10⟩ := h8.div h9 p1
  have e11 := (h10.cast (e := Dim.one) (by dims) rfl).toNumber
  simp only [Window.safetyFactorX, Window.safetyFactorFormulaX, a1, a2, a3, a4, a5, ok_bind, c1, c2, c3, c4, c5, e1,
    e2, e3, e4, e5, e6, e7, e8, e9, e10, e11]

/-- C121: an infinite pressure gives the safety factor 0, the limit. -/
theorem C121_window_pressure (hL : Denotes reg xL Dim.length L) (hW : Denotes reg xW Dim.length W)
    (hT : Denotes reg xT Dim.length T) (hM : Denotes reg xM Dim.pressure M) (L0 : 0 < L) (W0 : 0 < W) (T0 : 0 ≤ T)
    (M0 : 0 ≤ M) (hx : DenotesX reg x Dim.pressure .pinf) :
    Window.safetyFactorX reg (.ofQIn xL) (.ofQIn xW) (.ofQIn xT) x (.ofQIn xM) = .ok (.fin 0) ∧
      LimitAt (fun t => Window.safetyFactor reg xL xW xT (x.at t) xM) (.fin 0) := by
  constructor
  · rw [windowX_eval (denotesX_fin hL) (denotesX_fin hW) (denotesX_fin hT) hx (denotesX_fin hM) (.inr ⟨L, L0.le, rfl⟩)
      (.inr ⟨W, W0.le, rfl⟩) (.inr ⟨T, T0, rfl⟩) (.inl rfl) (.inr ⟨M, M0, rfl⟩) (by simpa using W0.ne')
      (by simpa using L0.ne') (by rw [Xf.mul_pinf (by norm_num)]; simp), Xf.mul_pinf (by norm_num)]
    simp
  · obtain ⟨s, o, hs, hd⟩ := at_denotes hx
    have hline := line_atTop hs o
    refine limit_fin (g := fun t => 8 / 3 * M * T ^ 2 * (1 / L ^ 2 + 1 / W ^ 2) * (t * s + o)⁻¹) ?_ ?_
    · filter_upwards [hline.eventually_gt_atTop 0] with t ht
      rw [Window.C16_safety_factor_form hL hW hT (hd t) hM L0 W0 T0 ht M0]
      congr 1; field_simp
    · have h0 := (tendsto_inv_atTop_zero.comp hline).const_mul (8 / 3 * M * T ^ 2 * (1 / L ^ 2 + 1 / W ^ 2))
      rw [mul_zero] at h0
      exact h0

/-- C121: an infinite modulus of rupture gives an infinite safety factor, the limit (NaN for a window of thickness 0).
-/
theorem C121_window_modulus (hL : Denotes reg xL Dim.length L) (hW : Denotes reg xW Dim.length W)
    (hT : Denotes reg xT Dim.length T) (hP : Denotes reg xP Dim.pressure P) (L0 : 0 < L) (W0 : 0 < W) (P0 : 0 < P)
    (hx : DenotesX reg x Dim.pressure .pinf) :
    (0 < T → Window.safetyFactorX reg (.ofQIn xL) (.ofQIn xW) (.ofQIn xT) (.ofQIn xP) x = .ok .pinf ∧
      LimitAt (fun t => Window.safetyFactor reg xL xW xT xP (x.at t)) .pinf) ∧
    (T = 0 → Window.safetyFactorX reg (.ofQIn xL) (.ofQIn xW) (.ofQIn xT) (.ofQIn xP) x = .ok .nan) := by
  have ev : 0 ≤ T → _ := fun T0 => windowX_eval (denotesX_fin hL) (denotesX_fin hW) (denotesX_fin hT) (denotesX_fin hP) hx
      (.inr ⟨L, L0.le, rfl⟩) (.inr ⟨W, W0.le, rfl⟩) (.inr ⟨T, T0, rfl⟩) (.inr ⟨P, P0.le, rfl⟩) (.inl rfl)
      (by simpa using W0.ne') (by simpa using L0.ne') (by norm_num [P0.ne'])
  refine ⟨fun T0 => ⟨?_, ?_⟩, fun T0 => ?_⟩
  · rw [ev T0.le, Xf.mul_pinf (by norm_num), Xf.div_fin, Xf.div_fin, Xf.mul_fin, Xf.mul_fin, Xf.mul_fin, Xf.add_fin,
      Xf.pinf_mul (by positivity), Xf.mul_pinf (by positivity), Xf.pinf_div (by positivity)]
  · obtain ⟨s, o, hs, hd⟩ := at_denotes hx
    have hline := line_atTop hs o
    refine limit_pinf (g := fun t => 8 / 3 * (1 / P) * T ^ 2 * (1 / L ^ 2 + 1 / W ^ 2) * (t * s + o)) ?_ ?_
    · filter_upwards [hline.eventually_gt_atTop 0] with t ht
      rw [Window.C16_safety_factor_form hL hW hT hP (hd t) L0 W0 T0.le P0 ht.le]
      congr 1; field_simp
    · exact hline.const_mul_atTop (by positivity)
  · rw [ev T0.ge, Xf.mul_pinf (by norm_num), T0]
    simp only [Xf.div_fin, Xf.mul_fin, Xf.add_fin]
    rw [Xf.pinf_mul (by positivity)]
    simp

/-- C121: an infinite thickness gives an infinite safety factor, the limit (NaN for modulus 0). -/
theorem C121_window_thickness (hL : Denotes reg xL Dim.length L) (hW : Denotes reg xW Dim.length W)
    (hP : Denotes reg xP Dim.pressure P) (hM : Denotes reg xM Dim.pressure M) (L0 : 0 < L) (W0 : 0 < W) (P0 : 0 < P)
    (hx : DenotesX reg x Dim.length .pinf) :
    (0 < M → Window.safetyFactorX reg (.ofQIn xL) (.ofQIn xW) x (.ofQIn xP) (.ofQIn xM) = .ok .pinf ∧
      LimitAt (fun t => Window.safetyFactor reg xL xW (x.at t) xP xM) .pinf) ∧
    (M = 0 → Window.safetyFactorX reg (.ofQIn xL) (.ofQIn xW) x (.ofQIn xP) (.ofQIn xM) = .ok .nan) := by
  have ev : 0 ≤ M → _ := fun M0 => windowX_eval (denotesX_fin hL) (denotesX_fin hW) hx (denotesX_fin hP) (denotesX_fin hM)
      (.inr ⟨L, L0.le, rfl⟩) (.inr ⟨W, W0.le, rfl⟩) (.inl rfl) (.inr ⟨P, P0.le, rfl⟩) (.inr ⟨M, M0, rfl⟩)
      (by simpa using W0.ne') (by simpa using L0.ne') (by norm_num [P0.ne'])
  refine ⟨fun M0 => ⟨?_, ?_⟩, fun M0 => ?_⟩
  · rw [ev M0.le, Xf.pinf_div L0, Xf.pinf_pinf, Xf.div_fin, Xf.mul_fin, Xf.mul_fin, Xf.mul_fin, Xf.add_fin, Xf.mul_fin,
      Xf.pinf_mul (by positivity), Xf.pinf_div (by positivity)]
  · obtain ⟨s, o, hs, hd⟩ := at_denotes hx
    have hline := line_atTop hs o
    refine limit_pinf (g := fun t => 8 / 3 * (M / P) * (1 / L ^ 2 + 1 / W ^ 2) * (t * s + o) ^ 2) ?_ ?_
    · filter_upwards [hline.eventually_ge_atTop 0] with t ht
      rw [Window.C16_safety_factor_form hL hW (hd t) hP hM L0 W0 ht P0 M0.le]
      congr 1; ring
    · exact ((tendsto_pow_atTop two_ne_zero).comp hline).const_mul_atTop (by positivity)
  · rw [ev M0.ge, Xf.pinf_div L0, Xf.pinf_pinf, M0]
    simp

/-- C121: an infinite width gives the limit, the safety factor of a strip. -/
theorem C121_window_width (hL : Denotes reg xL Dim.length L) (hT : Denotes reg xT Dim.length T)
    (hP : Denotes reg xP Dim.pressure P) (hM : Denotes reg xM Dim.pressure M) (L0 : 0 < L) (T0 : 0 ≤ T) (P0 : 0 < P)
    (M0 : 0 ≤ M) (hx : DenotesX reg x Dim.length .pinf) :
    Window.safetyFactorX reg (.ofQIn xL) x (.ofQIn xT) (.ofQIn xP) (.ofQIn xM) =
        .ok (.fin (8 / 3 * (M / P) * T ^ 2 / L ^ 2)) ∧
      LimitAt (fun t => Window.safetyFactor reg xL (x.at t) xT xP xM) (.fin (8 / 3 * (M / P) * T ^ 2 / L ^ 2)) := by
  constructor
  · rw [windowX_eval (denotesX_fin hL) hx (denotesX_fin hT) (denotesX_fin hP) (denotesX_fin hM) (.inr ⟨L, L0.le, rfl⟩)
      (.inl rfl) (.inr ⟨T, T0, rfl⟩) (.inr ⟨P, P0.le, rfl⟩) (.inr ⟨M, M0, rfl⟩) (by simp)
      (by simpa using L0.ne') (by norm_num [P0.ne'])]
    simp only [Xf.div_pinf, Xf.div_fin, Xf.mul_fin, Xf.add_fin]
    congr 2; field_simp; ring
  · obtain ⟨s, o, hs, hd⟩ := at_denotes hx
    have hline := line_atTop hs o
    refine limit_fin (g := fun t => 8 / 3 * (M / P) * T ^ 2 * (1 / L ^ 2 + ((t * s + o)⁻¹) ^ 2)) ?_ ?_
    · filter_upwards [hline.eventually_gt_atTop 0] with t ht
      rw [Window.C16_safety_factor_form hL (hd t) hT hP hM L0 ht T0 P0 M0]
      congr 1; field_simp
    · have h0 := (((tendsto_inv_atTop_zero.comp hline).pow 2).const_add (1 / L ^ 2)).const_mul (8 / 3 * (M / P) * T ^ 2)
      rw [show 8 / 3 * (M / P) * T ^ 2 / L ^ 2 = 8 / 3 * (M / P) * T ^ 2 * (1 / L ^ 2 + 0 ^ 2) by ring]
      exact h0

/-- C121: an infinite length gives NaN (length and width play the same role, C16, but not here). -/
theorem C121_window_length (hW : Denotes reg xW Dim.length W) (hT : Denotes reg xT Dim.length T)
    (hP : Denotes reg xP Dim.pressure P) (hM : Denotes reg xM Dim.pressure M) (W0 : 0 < W) (T0 : 0 ≤ T) (P0 : 0 < P)
    (M0 : 0 ≤ M) (hx : DenotesX reg x Dim.length .pinf) :
    Window.safetyFactorX reg x (.ofQIn xW) (.ofQIn xT) (.ofQIn xP) (.ofQIn xM) = .ok .nan := by
  rw [windowX_eval hx (denotesX_fin hW) (denotesX_fin hT) (denotesX_fin hP) (denotesX_fin hM) (.inl rfl)
    (.inr ⟨W, W0.le, rfl⟩) (.inr ⟨T, T0, rfl⟩) (.inr ⟨P, P0.le, rfl⟩) (.inr ⟨M, M0, rfl⟩) (by simpa using W0.ne')
    (by simp) (by norm_num [P0.ne']), Xf.pinf_div W0]
  rcases M0.eq_or_lt with rfl | M0
  · simp
  · simp only [Xf.div_pinf, Xf.mul_fin, Xf.pinf_pinf, Xf.add_pinf]
    rw [Xf.mul_pinf (by positivity)]
    simp

/-- `float("inf")` bar, as a quantity or a pair, is such an argument. -/
example : DenotesX Window.exReg (.quantity ⟨.pinf, PUnit.bar, 7⟩) Dim.pressure .pinf ∧
    DenotesX Window.exReg (.pair .pinf "m") Dim.length .pinf :=
  ⟨⟨rfl, rfl⟩, PUnit.meter, rfl, rfl, rfl⟩

end Window

/-! ### Minimum thickness -/

section Thickness
variable {reg : Registry} {xL xW xP xM : QIn} {x : XIn} {L W P M sf : ℝ}

private theorem thicknessX_eval {xL xW xP xM : XIn} {l w f p m : Xf}
    (hL : DenotesX reg xL Dim.length l) (hW : DenotesX reg xW Dim.length w)
    (hP : DenotesX reg xP Dim.pressure p) (hM : DenotesX reg xM Dim.pressure m)
    (l0 : l = .pinf ∨ ∃ y, 0 ≤ y ∧ l = .fin y) (w0 : w = .pinf ∨ ∃ y, 0 ≤ y ∧ w = .fin y)
    (p0 : p = .pinf ∨ ∃ y, 0 ≤ y ∧ p = .fin y) (m0 : m = .pinf ∨ ∃ y, 0 ≤ y ∧ m = .fin y) (w1 : w ≠ .fin 0)
    (f1 : Xf.lt f (.fin 1) = false) {den q s : Xf} (hden : m.mul ((Xf.fin 1).add ((l.div w).mul (l.div w))) = den)
    (den0 : den ≠ .fin 0) (hq : p.div den = q)
    (hs : q = .pinf ∧ s = .pinf ∨ ∃ y, 0 ≤ y ∧ q = .fin y ∧ s = .fin (Real.sqrt y)) :
    ∃ c, Window.minimumThicknessX reg xL xW f xP xM = .ok c ∧ c.unit = PUnit.meter ∧ c.reg = reg.id ∧
      c.phys = ((Xf.sqrt ((f.mul (.fin 0.75)).div (.fin 2))).mul l).mul s := by
  obtain ⟨q1, a1, c1, v1⟩ := base_parseX lookup_length hL l0
  obtain ⟨q2, a2, c2, v2⟩ := base_parseX lookup_length hW w0
  obtain ⟨q4, a4, c4, v4⟩ := base_parseX lookup_pressure hP p0
  obtain ⟨q5, a5, c5, v5⟩ := base_parseX lookup_pressure hM m0
  obtain ⟨d1, e1, h1⟩ := v1.div v2 w1
  obtain ⟨d2, e2, h2⟩ := v1.scale (Xf.sqrt ((f.mul (.fin 0.75)).div (.fin 2)))
  obtain ⟨d3, e3, h3⟩ := h1.sq
  obtain ⟨d4, e4, h4⟩ := (h3.cast (e := Dim.one) (by dims) rfl).addNum (.fin 1)
  obtain ⟨d5, e5, h5⟩ := v5.mul h4
  rw [hden] at h5
  obtain ⟨d6, e6, h6⟩ := v4.div h5 den0
  rw [hq] at h6
  obtain ⟨d7, e7, h7⟩ := h6.root (p := 1 / 2) (by norm_num) (by
    rcases hs with ⟨h, -⟩ | ⟨y, hy, h, -⟩
    · exact .inr (.inl h)
    · exact .inr (.inr ⟨y, hy, h⟩))
  have h7' : HasX d7 (((Dim.pressure.div (Dim.pressure.mul Dim.one))).pow (1 / 2)) s reg.id := by
    rcases hs with ⟨h, h'⟩ | ⟨y, hy, h, h'⟩
    · subst h; subst h'; exact h7
    · subst h; subst h'
      refine h7.cast rfl ?_
      rw [Real.sqrt_eq_rpow]; norm_num
  obtain ⟨d8, e8, h8⟩ := h2.mul h7'
  obtain ⟨d9, e9, h9, u9⟩ := (h8.cast (e := Dim.length) (by dims) rfl).convert v2.dim v2.off
  refine ⟨d9, ?_, ?_, h9.reg, h9.phys⟩
  · simp only [Window.minimumThicknessX, Window.thicknessFormulaX, a1, a2, a4, a5, ok_bind, c1, c2, c4, c5, f1, e1,
      e2, e3, e4, e5, e6, e7, e8, e9, Bool.false_eq_true, if_false]
  · rw [u9]
    show PUnit.base q2.unit.dim = PUnit.meter
    rw [show q2.unit.dim = Dim.length from v2.dim]; rfl

private theorem thickness_phys (hL : Denotes reg xL Dim.length L) (hW : Denotes reg xW Dim.length W)
    (hP : Denotes reg xP Dim.pressure P) (hM : Denotes reg xM Dim.pressure M) (L0 : 0 ≤ L) (W0 : 0 < W) (P0 : 0 ≤ P)
    (M0 : 0 < M) (hsf : 1 ≤ sf) :
    (Window.minimumThickness reg xL xW (.num sf) xP xM).map (·.phys) =
      .ok (Real.sqrt (sf * 0.75 / 2) * L * Real.sqrt (P / (M * (1 + (L / W) ^ 2)))) := by
  obtain ⟨c, e, -, hv⟩ := Window.minimumThickness_eval hL hW hP hM L0 W0 P0 M0 hsf
  rw [e]
  exact congrArg _ hv.phys

/-- C121: an infinite safety factor needs an infinite thickness, the limit. -/
theorem C121_thickness_factor (hL : Denotes reg xL Dim.length L) (hW : Denotes reg xW Dim.length W)
    (hP : Denotes reg xP Dim.pressure P) (hM : Denotes reg xM Dim.pressure M) (L0 : 0 < L) (W0 : 0 < W) (P0 : 0 < P)
    (M0 : 0 < M) :
    (∃ c, Window.minimumThicknessX reg (.ofQIn xL) (.ofQIn xW) .pinf (.ofQIn xP) (.ofQIn xM) = .ok c ∧
      c.phys = .pinf) ∧
    LimitAt (fun t => (Window.minimumThickness reg xL xW (.num t) xP xM).map (·.phys)) .pinf := by
  have hden : 0 < M * (1 + L / W * (L / W)) := by positivity
  constructor
  · obtain ⟨c, e, -, -, hc⟩ := thicknessX_eval (f := .pinf) (denotesX_fin hL) (denotesX_fin hW) (denotesX_fin hP)
      (denotesX_fin hM) (.inr ⟨L, L0.le, rfl⟩) (.inr ⟨W, W0.le, rfl⟩) (.inr ⟨P, P0.le, rfl⟩) (.inr ⟨M, M0.le, rfl⟩)
      (by simpa using W0.ne') rfl rfl (by simpa using hden.ne') rfl
      (.inr ⟨P / (M * (1 + L / W * (L / W))), by positivity, rfl, rfl⟩)
    refine ⟨c, e, ?_⟩
    rw [hc, Xf.pinf_mul (by norm_num), Xf.pinf_div (by norm_num), Xf.sqrt_pinf, Xf.pinf_mul L0,
      Xf.pinf_mul (Real.sqrt_pos.mpr (by positivity))]
  · refine limit_pinf (g := fun t => Real.sqrt (t * 0.75 / 2) * L * Real.sqrt (P / (M * (1 + (L / W) ^ 2)))) ?_ ?_
    · filter_upwards [eventually_ge_atTop 1] with t ht
      exact thickness_phys hL hW hP hM L0.le W0 P0.le M0 ht
    · have h1 : Tendsto (fun t : ℝ => t * 0.75 / 2) atTop atTop :=
        (tendsto_id.atTop_mul_const (by norm_num : (0 : ℝ) < 0.75)).atTop_div_const (by norm_num)
      have h2 := Real.tendsto_sqrt_atTop.comp h1
      have h3 : 0 < Real.sqrt (P / (M * (1 + (L / W) ^ 2))) := Real.sqrt_pos.mpr (by positivity)
      exact (h2.atTop_mul_const L0).atTop_mul_const h3

/-- C121: an infinite pressure needs an infinite thickness, the limit. -/
theorem C121_thickness_pressure (hL : Denotes reg xL Dim.length L) (hW : Denotes reg xW Dim.length W)
    (hM : Denotes reg xM Dim.pressure M) (L0 : 0 < L) (W0 : 0 < W) (M0 : 0 < M) (hsf : 1 ≤ sf)
    (hx : DenotesX reg x Dim.pressure .pinf) :
    (∃ c, Window.minimumThicknessX reg (.ofQIn xL) (.ofQIn xW) (.fin sf) x (.ofQIn xM) = .ok c ∧ c.phys = .pinf) ∧
    LimitAt (fun t => (Window.minimumThickness reg xL xW (.num sf) (x.at t) xM).map (·.phys)) .pinf := by
  have hden : 0 < M * (1 + L / W * (L / W)) := by positivity
  have hk : 0 < Real.sqrt (sf * 0.75 / 2) * L := by
    have : 0 < Real.sqrt (sf * 0.75 / 2) := Real.sqrt_pos.mpr (by positivity)
    positivity
  constructor
  · obtain ⟨c, e, -, -, hc⟩ := thicknessX_eval (f := .fin sf) (denotesX_fin hL) (denotesX_fin hW) hx
      (denotesX_fin hM) (.inr ⟨L, L0.le, rfl⟩) (.inr ⟨W, W0.le, rfl⟩) (.inl rfl) (.inr ⟨M, M0.le, rfl⟩)
      (by simpa using W0.ne') (by simpa using hsf) rfl (by simpa using hden.ne') (Xf.pinf_div hden) (.inl ⟨rfl, rfl⟩)
    refine ⟨c, e, ?_⟩
    rw [hc, Xf.mul_fin, Xf.div_fin, Xf.sqrt_fin, Xf.mul_fin, Xf.mul_pinf hk]
  · obtain ⟨s, o, hs, hd⟩ := at_denotes hx
    have hline := line_atTop hs o
    refine limit_pinf (g := fun t => Real.sqrt (sf * 0.75 / 2) * L *
      Real.sqrt ((t * s + o) / (M * (1 + (L / W) ^ 2)))) ?_ ?_
    · filter_upwards [hline.eventually_ge_atTop 0] with t ht
      exact thickness_phys hL hW (hd t) hM L0.le W0 ht M0 hsf
    · exact (Real.tendsto_sqrt_atTop.comp (hline.atTop_div_const (by positivity))).const_mul_atTop hk

/-- C121: an infinitely strong window may be infinitely thin, the limit. -/
theorem C121_thickness_modulus (hL : Denotes reg xL Dim.length L) (hW : Denotes reg xW Dim.length W)
    (hP : Denotes reg xP Dim.pressure P) (L0 : 0 ≤ L) (W0 : 0 < W) (P0 : 0 ≤ P) (hsf : 1 ≤ sf)
    (hx : DenotesX reg x Dim.pressure .pinf) :
    (∃ c, Window.minimumThicknessX reg (.ofQIn xL) (.ofQIn xW) (.fin sf) (.ofQIn xP) x = .ok c ∧ c.phys = .fin 0) ∧
    LimitAt (fun t => (Window.minimumThickness reg xL xW (.num sf) xP (x.at t)).map (·.phys)) (.fin 0) := by
  have h1 : 0 < 1 + L / W * (L / W) := by positivity
  constructor
  · obtain ⟨c, e, -, -, hc⟩ := thicknessX_eval (f := .fin sf) (den := .pinf) (denotesX_fin hL) (denotesX_fin hW)
      (denotesX_fin hP) hx (.inr ⟨L, L0, rfl⟩) (.inr ⟨W, W0.le, rfl⟩) (.inr ⟨P, P0, rfl⟩) (.inl rfl)
      (by simpa using W0.ne') (by simpa using hsf)
      (by rw [Xf.div_fin, Xf.mul_fin, Xf.add_fin, Xf.pinf_mul h1]) (by simp) rfl (.inr ⟨0, le_rfl, rfl, rfl⟩)
    exact ⟨c, e, by rw [hc]; simp⟩
  · obtain ⟨s, o, hs, hd⟩ := at_denotes hx
    have hline := line_atTop hs o
    refine limit_fin (g := fun t => Real.sqrt (sf * 0.75 / 2) * L *
      Real.sqrt (P / ((t * s + o) * (1 + (L / W) ^ 2)))) ?_ ?_
    · filter_upwards [hline.eventually_gt_atTop 0] with t ht
      exact thickness_phys hL hW hP (hd t) L0 W0 P0 ht hsf
    · have h2 : Tendsto (fun t => P / ((t * s + o) * (1 + (L / W) ^ 2))) atTop (𝓝 0) :=
        (hline.atTop_mul_const (by positivity : 0 < 1 + (L / W) ^ 2)).const_div_atTop P
      have h3 := ((Real.continuous_sqrt.tendsto 0).comp h2).const_mul (Real.sqrt (sf * 0.75 / 2) * L)
      rw [Real.sqrt_zero, mul_zero] at h3
      exact h3

/-- C121: an infinite width gives the limit, the thickness of a strip. -/
theorem C121_thickness_width (hL : Denotes reg xL Dim.length L)
    (hP : Denotes reg xP Dim.pressure P) (hM : Denotes reg xM Dim.pressure M) (L0 : 0 ≤ L) (P0 : 0 ≤ P) (M0 : 0 < M)
    (hsf : 1 ≤ sf) (hx : DenotesX reg x Dim.length .pinf) :
    let v := Real.sqrt (sf * 0.75 / 2) * L * Real.sqrt (P / M)
    (∃ c, Window.minimumThicknessX reg (.ofQIn xL) x (.fin sf) (.ofQIn xP) (.ofQIn xM) = .ok c ∧ c.phys = .fin v) ∧
    LimitAt (fun t => (Window.minimumThickness reg xL (x.at t) (.num sf) xP xM).map (·.phys)) (.fin v) := by
  intro v
  constructor
  · obtain ⟨c, e, -, -, hc⟩ := thicknessX_eval (f := .fin sf) (den := .fin M) (denotesX_fin hL) hx
      (denotesX_fin hP) (denotesX_fin hM) (.inr ⟨L, L0, rfl⟩) (.inl rfl) (.inr ⟨P, P0, rfl⟩) (.inr ⟨M, M0.le, rfl⟩)
      (by simp) (by simpa using hsf) (by simp) (by simpa using M0.ne') rfl
      (.inr ⟨P / M, by positivity, rfl, rfl⟩)
    exact ⟨c, e, by rw [hc]; simp [v]⟩
  · obtain ⟨s, o, hs, hd⟩ := at_denotes hx
    have hline := line_atTop hs o
    refine limit_fin (g := fun t => Real.sqrt (sf * 0.75 / 2) * L *
      Real.sqrt (P / (M * (1 + (L / (t * s + o)) ^ 2)))) ?_ ?_
    · filter_upwards [hline.eventually_gt_atTop 0] with t ht
      exact thickness_phys hL (hd t) hP hM L0 ht P0 M0 hsf
    · have h2 : Tendsto (fun t => M * (1 + (L / (t * s + o)) ^ 2)) atTop (𝓝 (M * (1 + 0 ^ 2))) :=
        (((hline.const_div_atTop L).pow 2).const_add 1).const_mul M
      have h3 : Tendsto (fun t => P / (M * (1 + (L / (t * s + o)) ^ 2))) atTop (𝓝 (P / (M * (1 + 0 ^ 2)))) :=
        tendsto_const_nhds.div h2 (by simpa using M0.ne')
      have h4 := ((Real.continuous_sqrt.tendsto _).comp h3).const_mul (Real.sqrt (sf * 0.75 / 2) * L)
      rw [show v = Real.sqrt (sf * 0.75 / 2) * L * Real.sqrt (P / (M * (1 + 0 ^ 2))) by simp [v]]
      exact h4

/-- C121: an infinite length gives NaN. -/
theorem C121_thickness_length (hW : Denotes reg xW Dim.length W)
    (hP : Denotes reg xP Dim.pressure P) (hM : Denotes reg xM Dim.pressure M) (W0 : 0 < W) (P0 : 0 ≤ P) (M0 : 0 < M)
    (hsf : 1 ≤ sf) (hx : DenotesX reg x Dim.length .pinf) :
    ∃ c, Window.minimumThicknessX reg x (.ofQIn xW) (.fin sf) (.ofQIn xP) (.ofQIn xM) = .ok c ∧ c.phys = .nan := by
  obtain ⟨c, e, -, -, hc⟩ := thicknessX_eval (f := .fin sf) (den := .pinf) hx (denotesX_fin hW)
    (denotesX_fin hP) (denotesX_fin hM) (.inl rfl) (.inr ⟨W, W0.le, rfl⟩) (.inr ⟨P, P0, rfl⟩) (.inr ⟨M, M0.le, rfl⟩)
    (by simpa using W0.ne') (by simpa using hsf)
    (by rw [Xf.pinf_div W0, Xf.pinf_pinf, Xf.add_pinf, Xf.mul_pinf M0]) (by simp) rfl (.inr ⟨0, le_rfl, rfl, rfl⟩)
  refine ⟨c, e, ?_⟩
  rw [hc, Xf.mul_fin, Xf.div_fin, Xf.sqrt_fin, Xf.mul_pinf (Real.sqrt_pos.mpr (by positivity)), Real.sqrt_zero,
    Xf.pinf_mul_zero]

end Thickness

/-! ### Obstacles -/

section Blockage
variable {reg : Registry} {xD xd : QIn} {x : XIn} {D d br : ℝ}

/-- As `DenotesM`: an infinite argument in a multiplicative unit (every unit of length). -/
def XIn.NoOffset (reg : Registry) (x : XIn) : Prop :=
  match x with
  | .quantity q => q.unit.offset = 0
  | .pair _ s => ∀ u, reg.parse s = some u → u.offset = 0
  | .other => True

/-- Parsing and sign check of an infinite argument in a multiplicative unit. -/
theorem parseX_inf {kind : String} {dk : Dim} (hk : supportedDims.lookup kind = some dk)
    (hx : DenotesX reg x dk .pinf) (hn : x.NoOffset reg) :
    ∃ q, parseX x reg = .ok q ∧ checkX q kind true = .ok () ∧ HasX q dk .pinf reg.id := by
  have main : ∀ (m : Xf) (u : PUnit), u.dim = dk → m.affine u.scale u.offset = .pinf → u.offset = 0 →
      checkX ⟨m, u, reg.id⟩ kind true = .ok () ∧ HasX ⟨m, u, reg.id⟩ dk .pinf reg.id := by
    intro m u hd he ho
    have hm : m = .pinf := by cases m <;> simp_all [Xf.affine]
    subst hm
    exact ⟨checkQ_ok hk hd (by simp [Quantity.phys, PUnit.base]), hd, ho, rfl, rfl⟩
  cases x with
  | quantity q => exact ⟨⟨q.mag, q.unit, reg.id⟩, rfl, main q.mag q.unit hx.1 hx.2 hn⟩
  | pair m s =>
    obtain ⟨u, h1, h2, h3⟩ := hx
    exact ⟨⟨m, u, reg.id⟩, by simp [parseX, h1], main m u h2 h3 (hn u h1)⟩
  | other => exact hx.elim

/-- C121: in an infinitely wide tube the obstacle is infinite, the limit. -/
theorem C121_blockage_diameter (h0 : 0 < br) (h1 : br < 1) (hx : DenotesX reg x Dim.length .pinf)
    (hn : x.NoOffset reg) :
    (∃ c, DDT.blockageDiameterX reg x (.fin br) = .ok c ∧ c.phys = .pinf) ∧
    LimitAt (fun t => (DDT.blockageDiameter reg (x.at t) (.num br)).map (·.phys)) .pinf := by
  have hk : 0 < 1 - Real.sqrt (1 - br) := by
    have : Real.sqrt (1 - br) < 1 := by
      rw [Real.sqrt_lt' one_pos]; linarith
    linarith
  constructor
  · obtain ⟨q, a, c, v⟩ := parseX_inf lookup_length hx hn
    obtain ⟨c1, e1, v1⟩ := v.divNum (k := .fin 2) (by simp)
    obtain ⟨c2, e2, v2⟩ := v1.scale (.fin (1 - Real.sqrt (1 - br)))
    refine ⟨c2, ?_, ?_⟩
    · simp only [DDT.blockageDiameterX, Xf.lt_fin, h0, h1, decide_true, and_self, not_true, if_false, a, c, ok_bind,
        e1, Xf.sub_fin, Xf.sqrt_fin, e2]
    · rw [v2.phys, Xf.pinf_div two_pos, Xf.mul_pinf hk]
  · obtain ⟨s, o, hs, hd⟩ := at_denotes hx
    have hline := line_atTop hs o
    refine limit_pinf (g := fun t => (1 - Real.sqrt (1 - br)) * ((t * s + o) / 2)) ?_ ?_
    · filter_upwards [hline.eventually_ge_atTop 0] with t ht
      have hm : DenotesM reg (x.at t) Dim.length (t * s + o) := by
        refine ⟨hd t, ?_⟩
        cases x with
        | quantity q => exact hn
        | pair m s => exact hn
        | other => trivial
      obtain ⟨u, hu⟩ : ∃ u, UnitOf reg (x.at t) u := by
        cases x with
        | quantity q => exact ⟨_, rfl⟩
        | pair m s => obtain ⟨u, h, -⟩ := hx; exact ⟨u, h⟩
        | other => exact hx.elim
      obtain ⟨q, e, -, hq⟩ := DDT.blockageDiameter_eval hm hu (n := .num br) rfl h0 h1 ht
      rw [e]; exact congrArg _ hq.phys
    · exact (hline.atTop_div_const two_pos).const_mul_atTop hk

/-- C121: an infinite blockage ratio, of either sign, is refused, whatever the tube. -/
theorem C121_blockage_ratio_refused :
    IsValueError (DDT.blockageDiameterX reg x .pinf) ∧ IsValueError (DDT.blockageDiameterX reg x .ninf) := by
  constructor <;> exact ⟨"\nBlockage ratio outside of 0<BR<1", by simp [DDT.blockageDiameterX, Xf.lt]⟩

/-- C121: an obstacle blocks nothing of an infinitely wide tube, the limit. -/
theorem C121_blockage_ratio (hd : Denotes reg xd Dim.length d) (d0 : 0 ≤ d) (hx : DenotesX reg x Dim.length .pinf) :
    DDT.blockageRatioX reg x (.ofQIn xd) = .ok (.fin 0) ∧
    LimitAt (fun t => DDT.blockageRatio reg (x.at t) xd) (.fin 0) := by
  constructor
  · obtain ⟨q1, a1, c1, v1⟩ := base_parseX lookup_length hx (.inl rfl)
    obtain ⟨q2, a2, c2, v2⟩ := base_parseX lookup_length (denotesX_fin hd) (.inr ⟨d, d0, rfl⟩)
    have e := v2.ge v1
    have m1 : q1.toBase.mag = .pinf := by
      have := v1.val
      cases hm : q1.toBase.mag <;> simp_all [Xf.affine]
    have m2 : ∃ y, q2.toBase.mag = .fin y := by
      have := v2.val
      cases hm : q2.toBase.mag <;> simp_all [Xf.affine]
    obtain ⟨y, m2⟩ := m2
    simp [DDT.blockageRatioX, a1, a2, c1, c2, e, m1, m2, Xf.le]
  · obtain ⟨s, o, hs, hD⟩ := at_denotes hx
    have hline := line_atTop hs o
    refine limit_fin (g := fun t => 1 - (1 - 2 * d / (t * s + o)) ^ 2) ?_ ?_
    · filter_upwards [hline.eventually_gt_atTop d] with t ht
      exact DDT.blockageRatio_eval (hD t) hd d0 ht
    · have h := (((hline.const_div_atTop (2 * d)).const_sub 1).pow 2).const_sub 1
      rw [show (1 : ℝ) - (1 - 0) ^ 2 = 0 by norm_num] at h
      exact h

/-- C121: an infinite obstacle is refused, in every tube (also an infinite one). -/
theorem C121_obstacle_refused {x' : XIn} {D : Xf} (hD : DenotesX reg x' Dim.length D)
    (D0 : D = .pinf ∨ ∃ y, 0 ≤ y ∧ D = .fin y) (hx : DenotesX reg x Dim.length .pinf) :
    IsValueError (DDT.blockageRatioX reg x' x) := by
  obtain ⟨q1, a1, c1, v1⟩ := base_parseX lookup_length hx (.inl rfl)
  obtain ⟨q2, a2, c2, v2⟩ := base_parseX lookup_length hD D0
  have e := v1.ge v2
  have : Xf.le D .pinf = true := by rcases D0 with rfl | ⟨y, -, rfl⟩ <;> rfl
  rw [this] at e
  simp only [DDT.blockageRatioX, a1, a2, c1, c2, ok_bind, e]
  split
  · exact ⟨_, rfl⟩
  · exact ⟨_, rfl⟩

end Blockage

/-! ### Tubes -/

section Tubes
variable {reg : Registry}

open Tube in
/-- C121: an infinite temperature (either sign) gives the allowable stress of the last (first) tabulated temperature,
and so does every number beyond it. -/
theorem C121_max_stress {material : String} {welded : Bool} {x : XIn} {i s : ℕ} {r : ℤ × List ℕ}
    (hi : (stressCols welded)[i]? = some material) (hs : r.2[i]? = some s) :
    (DenotesX reg x Dim.temperature .pinf → (stressRows welded).getLast? = some r →
      maxStressX reg x material welded = .ok ⟨.fin (s / 10), PUnit.ksi, reg.id⟩ ∧
      ∀ y t, IsDegF reg y t → r.1 ≤ t → maxStress reg y material welded = .ok ⟨s / 10, PUnit.ksi, reg.id⟩) ∧
    (DenotesX reg x Dim.temperature .ninf → (stressRows welded).head? = some r →
      maxStressX reg x material welded = .ok ⟨.fin (s / 10), PUnit.ksi, reg.id⟩ ∧
      ∀ y t, IsDegF reg y t → t ≤ r.1 → maxStress reg y material welded = .ok ⟨s / 10, PUnit.ksi, reg.id⟩) := by
  obtain ⟨hinc, -⟩ := points_of_chk (stress_chk welded i (col_lt hi))
  have hsv : ((r.2.getD i 0 : ℕ) : ℝ) / 10 = s / 10 := by simp [List.getD_eq_getElem?_getD, hs]
  have ev : ∀ {v : Xf}, (v = .pinf ∨ v = .ninf) → DenotesX reg x Dim.temperature v →
      maxStressX reg x material welded = .ok ⟨interpX v (points i (stressRows welded)), PUnit.ksi, reg.id⟩ := by
    intro v hv hx
    have main : ∀ (m : Xf) (u : PUnit), u.dim = Dim.temperature → m.affine u.scale u.offset = v →
        QX.convert ⟨m, u, reg.id⟩ PUnit.degF = .ok ⟨v, PUnit.degF, reg.id⟩ := by
      intro m u hd he
      unfold QX.convert
      rw [if_pos (by rw [show (QX.unit ⟨m, u, reg.id⟩).dim = u.dim from rfl, hd]; rfl)]
      unfold QX.phys
      rw [he]
      rcases hv with rfl | rfl <;> rfl
    cases x with
    | quantity q =>
      have := main q.mag q.unit hx.1 hx.2
      simp only [maxStressX, parseX, ok_bind, stressLimits_eq hi, if_pos hinc, this]
    | pair m st =>
      obtain ⟨u, h1, h2, h3⟩ := hx
      have := main m u h2 h3
      simp only [maxStressX, parseX, h1, ok_bind, stressLimits_eq hi, if_pos hinc, this]
    | other => exact hx.elim
  constructor
  · intro hx hr
    obtain ⟨pre, hp⟩ := List.getLast?_eq_some_iff.mp hr
    constructor
    · rw [ev (.inl rfl) hx]
      simp only [interpX, points, hp, List.map_append, List.map_cons, List.map_nil, List.getLast?_append,
        List.getLast?_singleton, Option.some_or, Option.map_some, Option.getD_some, hsv]
    · intro y t hy ht
      rw [maxStress_eval hy hi]
      rw [hp] at hinc ⊢
      simp only [points, List.map_append, List.map_cons, List.map_nil] at hinc ⊢
      rw [npInterp_right _ hinc ht, hsv]
  · intro hx hr
    obtain ⟨l, hp⟩ := List.head?_eq_some_iff.mp hr
    constructor
    · rw [ev (.inr rfl) hx]
      simp only [interpX, points, hp, List.map_cons, List.head?_cons, Option.map_some, Option.getD_some, hsv]
    · intro y t hy ht
      rw [maxStress_eval hy hi]
      rw [hp] at hinc ⊢
      simp only [points, List.map_cons] at hinc ⊢
      rw [npInterp_left hinc ht, hsv]

private theorem maxPressureX_eval {qi qo qs : QX} {i o s f : Xf} {r : ℕ} (hi : HasX qi Dim.length i r)
    (ho : HasX qo Dim.length o r) (hs : HasX qs Dim.pressure s r)
    (h0 : f.mul ((o.add i).div (.fin 2)) ≠ .fin 0) :
    ∃ c, Tube.maxPressureX qi qo qs f = .ok c ∧ c.phys =
      (s.mul ((Xf.fin 2).mul ((o.sub i).div (.fin 2)))).div (f.mul ((o.add i).div (.fin 2))) := by
  obtain ⟨c1, e1, h1⟩ := ho.add hi
  obtain ⟨c2, e2, h2⟩ := h1.divNum (k := .fin 2) (by simp)
  obtain ⟨c3, e3, h3⟩ := ho.sub hi
  obtain ⟨c4, e4, h4⟩ := h3.divNum (k := .fin 2) (by simp)
  obtain ⟨c5, e5, h5⟩ := h4.scale (.fin 2)
  obtain ⟨c6, e6, h6⟩ := hs.mul h5
  obtain ⟨c7, e7, h7⟩ := h2.scale f
  obtain ⟨c8, e8, h8⟩ := h6.div h7 h0
  exact ⟨c8, by simp only [Tube.maxPressureX, e1, e2, e3, e4, e5, e6, e7, e8, ok_bind], h8.phys⟩

private theorem maxPressure_phys {qi qo qs : Quantity} {i o s f : ℝ} {r : ℕ} (hi : HasVal qi Dim.length i r)
    (ho : HasVal qo Dim.length o r) (hs : HasVal qs Dim.pressure s r) (hd : o + i ≠ 0) (hf : f ≠ 0) :
    (Tube.maxPressure qi qo qs f).map (·.phys) = .ok (2 * s * (o - i) / ((o + i) * f)) := by
  obtain ⟨q, e, h⟩ := Tube.maxPressure_eval hi ho hs hd hf
  rw [e]; exact congrArg _ h.phys

/-- C121: an infinite allowable stress gives an infinite pressure and an infinite safety factor the pressure 0, the
limits; an infinite diameter gives NaN. -/
theorem C121_max_pressure {qi qo qs : Quantity} {i o s f : ℝ} {r : ℕ} {u : PUnit} (hi : HasVal qi Dim.length i r)
    (ho : HasVal qo Dim.length o r) (hs : HasVal qs Dim.pressure s r) (i0 : 0 ≤ i) (io : i < o) (s0 : 0 < s)
    (f0 : 0 < f) (uo : u.offset = 0) :
    (u.dim = Dim.pressure →
      (∃ c, Tube.maxPressureX (ofQ qi) (ofQ qo) ⟨.pinf, u, r⟩ (.fin f) = .ok c ∧ c.phys = .pinf) ∧
      LimitAt (fun t => (Tube.maxPressure qi qo ⟨t, u, r⟩ f).map (·.phys)) .pinf) ∧
    ((∃ c, Tube.maxPressureX (ofQ qi) (ofQ qo) (ofQ qs) .pinf = .ok c ∧ c.phys = .fin 0) ∧
      LimitAt (fun t => (Tube.maxPressure qi qo qs t).map (·.phys)) (.fin 0)) ∧
    (u.dim = Dim.length →
      (∃ c, Tube.maxPressureX ⟨.pinf, u, r⟩ (ofQ qo) (ofQ qs) (.fin f) = .ok c ∧ c.phys = .nan) ∧
      ∃ c, Tube.maxPressureX (ofQ qi) ⟨.pinf, u, r⟩ (ofQ qs) (.fin f) = .ok c ∧ c.phys = .nan) := by
  have o0 : 0 < o := i0.trans_lt io
  have hoi : 0 < o - i := sub_pos.mpr io
  have inf : ∀ {d : Dim}, u.dim = d → HasX ⟨.pinf, u, r⟩ d .pinf r := fun hd => ⟨hd, uo, rfl, rfl⟩
  have num : ∀ {d : Dim}, u.dim = d → ∀ t, HasVal ⟨t, u, r⟩ d (t * u.scale) r := fun hd t => ⟨hd, uo, rfl, rfl⟩
  have hline : Tendsto (fun t : ℝ => t * u.scale) atTop atTop := tendsto_id.atTop_mul_const u.pos
  refine ⟨fun hu => ⟨?_, ?_⟩, ⟨?_, ?_⟩, fun hu => ⟨?_, ?_⟩⟩
  · obtain ⟨c, e, hc⟩ := maxPressureX_eval (f := .fin f) (.ofQ hi) (.ofQ ho) (inf hu) (by simp; constructor <;> positivity)
    refine ⟨c, e, ?_⟩
    rw [hc, Xf.sub_fin, Xf.div_fin, Xf.mul_fin, Xf.pinf_mul (by positivity), Xf.add_fin, Xf.div_fin, Xf.mul_fin,
      Xf.pinf_div (by positivity)]
  · refine limit_pinf (g := fun t => t * u.scale * (2 * (o - i) / ((o + i) * f))) ?_ ?_
    · refine Eventually.of_forall fun t => ?_
      rw [maxPressure_phys hi ho (num hu t) (by positivity) f0.ne']
      congr 1; ring
    · exact hline.atTop_mul_const (by positivity)
  · have h1 : Xf.pinf.mul (((Xf.fin o).add (.fin i)).div (.fin 2)) = .pinf := by
      rw [Xf.add_fin, Xf.div_fin, Xf.pinf_mul (by positivity)]
    obtain ⟨c, e, hc⟩ := maxPressureX_eval (f := .pinf) (.ofQ hi) (.ofQ ho) (.ofQ hs) (by rw [h1]; simp)
    exact ⟨c, e, by rw [hc, h1]; simp⟩
  · refine limit_fin (g := fun t => 2 * s * (o - i) / ((o + i) * t)) ?_ ?_
    · filter_upwards [eventually_gt_atTop 0] with t ht
      exact maxPressure_phys hi ho hs (by positivity) ht.ne'
    · exact (tendsto_id.const_mul_atTop (by positivity : 0 < o + i)).const_div_atTop _
  · have h1 : (Xf.fin f).mul (((Xf.fin o).add .pinf).div (.fin 2)) = .pinf := by
      rw [Xf.add_pinf, Xf.pinf_div two_pos, Xf.mul_pinf f0]
    obtain ⟨c, e, hc⟩ := maxPressureX_eval (f := .fin f) (inf hu) (.ofQ ho) (.ofQ hs) (by rw [h1]; simp)
    refine ⟨c, e, ?_⟩
    rw [hc, h1, Xf.sub_pinf, Xf.ninf_div two_pos, Xf.mul_ninf two_pos, Xf.mul_ninf s0, Xf.ninf_div_pinf]
  · have h1 : (Xf.fin f).mul ((Xf.pinf.add (.fin i)).div (.fin 2)) = .pinf := by
      rw [Xf.pinf_add, Xf.pinf_div two_pos, Xf.mul_pinf f0]
    obtain ⟨c, e, hc⟩ := maxPressureX_eval (f := .fin f) (.ofQ hi) (inf hu) (.ofQ hs) (by rw [h1]; simp)
    refine ⟨c, e, ?_⟩
    rw [hc, h1, Xf.pinf_sub, Xf.pinf_div two_pos, Xf.mul_pinf two_pos, Xf.mul_pinf s0, Xf.pinf_div_pinf]

end Tubes

/-! ### Flanges -/

section Flanges
variable {reg : Registry} {x : XIn}

/-- The argument's magnitude is infinite, of either sign. -/
def XIn.IsInf : XIn → Prop
  | .quantity q => q.mag = .pinf ∨ q.mag = .ninf
  | .pair m _ => m = .pinf ∨ m = .ninf
  | .other => False

/-- C121: the flange routines raise for an infinite temperature or pressure, whatever the material, class, units and
registries. -/
theorem C121_flange (u : Registry) (cls : String) (mat : Tube.MatIn) (hx : x.IsInf) :
    (∀ y, Raises (Flange.getClassX u reg x y mat)) ∧ (∀ y, Raises (Flange.getClassX u reg y x mat)) ∧
    Raises (Flange.getMaxPressureX u cls x mat) ∧ Raises (Flange.getMaxTemperatureX u cls x mat) := by
  have key : ∀ {α : Type} {z : Py α}, (∀ a, z ≠ .ok a) → Raises z := by
    intro α z h; cases z with
    | error e => exact ⟨e, rfl⟩
    | ok a => exact absurd rfl (h a)
  have hpar : ∀ {r : Registry} {y : XIn} {q : QX}, y.IsInf → parseX y r = .ok q → q.mag = .pinf ∨ q.mag = .ninf := by
    intro r y q hy h
    cases y with
    | quantity q' => cases h; exact hy
    | pair m s =>
      unfold parseX at h; dsimp at h
      split at h <;> cases h
      exact hy
    | other => exact hy.elim
  have hphys : ∀ {q : QX}, (q.mag = .pinf ∨ q.mag = .ninf) → (q.phys = .pinf ∨ q.phys = .ninf) := by
    intro q h
    unfold QX.phys
    rcases h with h | h <;> rw [h] <;> simp
  have hrange : ∀ {q : QX} {lo hi v r msg}, (q.mag = .pinf ∨ q.mag = .ninf) →
      Flange.checkRangeX q lo hi v r msg ≠ .ok () := by
    intro q lo hi v r msg h h'
    simp only [Flange.checkRangeX, bind_eq_ok] at h'
    obtain ⟨a, ha, b, hb, h'⟩ := h'
    simp only [QX.lt, bind_eq_ok] at ha hb
    obtain ⟨-, -, ha⟩ := ha
    obtain ⟨-, -, hb⟩ := hb
    split at ha
    · split at hb
      · cases ha; cases hb
        rcases hphys h with hq | hq <;> rw [hq] at h' <;> simp [Xf.lt, QX.phys] at h'
      · cases hb
    · cases ha
  refine ⟨fun y => key fun a h => ?_, fun y => key fun a h => ?_, key fun a h => ?_, key fun a h => ?_⟩
  · simp only [Flange.getClassX, Flange.withLimits, bind_eq_ok] at h
    obtain ⟨lim, -, p, h1, t, -, c, hc, -, -, p', h2, t', -, g, -, k, -, c', hm, -, -, tk, -, h⟩ := h
    have hp := hpar hx h1
    have hp' : p'.mag = .pinf ∨ p'.mag = .ninf := hpar (y := .quantity p) hp h2
    rcases hp with hp | hp
    · cases h2
      simp only [Flange.checkMaxPressureX, QX.lt, bind_eq_ok] at hm
      obtain ⟨a', ⟨-, -, ha⟩, hm⟩ := hm
      split at ha
      · cases ha
        simp [Xf.lt, QX.phys, hp] at hm
      · cases ha
    · unfold checkX at hc
      rw [hp] at hc
      have hk := (checkQ_ok_iff lookup_pressure).mp hc
      have := hk.2 rfl
      norm_num [Quantity.phys, PUnit.base] at this
  · simp only [Flange.getClassX, Flange.withLimits, bind_eq_ok] at h
    obtain ⟨lim, -, p, -, t, h1, -, -, -, -, p', -, t', h2, g, -, k, -, -, -, c', hr, tk, h, -⟩ := h
    exact hrange (hpar (y := .quantity t) (hpar hx h1) h2) hr
  · simp only [Flange.getMaxPressureX, Flange.withLimits, bind_eq_ok] at h
    obtain ⟨lim, -, g, -, -, -, t, h1, c', hr, tk, h2, -⟩ := h
    exact hrange (hpar hx h1) hr
  · simp only [Flange.getMaxTemperatureX, Flange.withLimits, bind_eq_ok] at h
    obtain ⟨lim, -, g, -, -, -, t, h1, h⟩ := h
    split at h
    · cases h
    · simp only [bind_eq_ok] at h
      obtain ⟨c', hr, tk, h2, -⟩ := h
      exact hrange (hpar hx h1) hr

end Flanges

/-! ### Minus infinity -/

section Negative
variable {reg : Registry}

/-- The argument is `-inf` in its unit. -/
def XIn.IsNinf : XIn → Prop
  | .quantity q => q.mag = .ninf
  | .pair m _ => m = .ninf
  | .other => False

private theorem raises_of {α : Type} {z : Py α} (h : ∀ a, z ≠ .ok a) : Raises z := by
  cases z with
  | error e => exact ⟨e, rfl⟩
  | ok a => exact absurd rfl (h a)

private theorem ninf_parse {x : XIn} {q : QX} (hx : x.IsNinf) (h : parseX x reg = .ok q) : q.mag = .ninf := by
  cases x with
  | quantity q' => cases h; exact hx
  | pair m s =>
    unfold parseX at h; dsimp at h
    split at h <;> cases h
    exact hx
  | other => exact hx.elim

private theorem ninf_check {q : QX} {kind : String} {d : Dim} {c : Unit} (hk : supportedDims.lookup kind = some d)
    (hq : q.mag = .ninf) (h : checkX q kind true = .ok c) : False := by
  unfold checkX at h
  rw [hq] at h
  have := ((checkQ_ok_iff hk).mp h).2 rfl
  norm_num [Quantity.phys, PUnit.base] at this

private theorem ninf_base {q : QX} (hq : q.mag = .ninf) : q.toBase.mag = .ninf := by
  show q.phys = .ninf
  unfold QX.phys; rw [hq]; rfl

/-- C121: `-inf` is refused in every argument of the window functions, whatever the others. -/
theorem C121_window_negative {x : XIn} (hx : x.IsNinf) (a b c d : XIn) (sf : Xf) :
    Raises (Window.safetyFactorX reg x a b c d) ∧ Raises (Window.safetyFactorX reg a x b c d) ∧
    Raises (Window.safetyFactorX reg a b x c d) ∧ Raises (Window.safetyFactorX reg a b c x d) ∧
    Raises (Window.safetyFactorX reg a b c d x) ∧
    Raises (Window.minimumThicknessX reg x a sf b c) ∧ Raises (Window.minimumThicknessX reg a x sf b c) ∧
    Raises (Window.minimumThicknessX reg a b sf x c) ∧ Raises (Window.minimumThicknessX reg a b sf c x) ∧
    Raises (Window.minimumThicknessX reg a b .ninf c d) := by
  have hs : ∀ y1 y2 y3 y4 y5 : XIn, (y1.IsNinf ∨ y2.IsNinf ∨ y3.IsNinf ∨ y4.IsNinf ∨ y5.IsNinf) →
      Raises (Window.safetyFactorX reg y1 y2 y3 y4 y5) := by
    intro y1 y2 y3 y4 y5 hy
    refine raises_of fun v h => ?_
    simp only [Window.safetyFactorX, bind_eq_ok] at h
    obtain ⟨q1, p1, q2, p2, q3, p3, q4, p4, q5, p5, _, c1, _, c2, _, c3, _, c4, _, c5, -⟩ := h
    rcases hy with h | h | h | h | h
    · exact ninf_check lookup_length (ninf_base (ninf_parse h p1)) c1
    · exact ninf_check lookup_length (ninf_base (ninf_parse h p2)) c2
    · exact ninf_check lookup_length (ninf_base (ninf_parse h p3)) c3
    · exact ninf_check lookup_pressure (ninf_base (ninf_parse h p4)) c4
    · exact ninf_check lookup_pressure (ninf_base (ninf_parse h p5)) c5
  have ht : ∀ (y1 y2 y4 y5 : XIn) (f : Xf), (y1.IsNinf ∨ y2.IsNinf ∨ y4.IsNinf ∨ y5.IsNinf ∨ f = .ninf) →
      Raises (Window.minimumThicknessX reg y1 y2 f y4 y5) := by
    intro y1 y2 y4 y5 f hy
    refine raises_of fun v h => ?_
    simp only [Window.minimumThicknessX, bind_eq_ok] at h
    obtain ⟨q1, p1, q2, p2, q4, p4, q5, p5, _, c1, _, c2, _, c4, _, c5, h'⟩ := h
    rcases hy with h | h | h | h | rfl
    · exact ninf_check lookup_length (ninf_base (ninf_parse h p1)) c1
    · exact ninf_check lookup_length (ninf_base (ninf_parse h p2)) c2
    · exact ninf_check lookup_pressure (ninf_base (ninf_parse h p4)) c4
    · exact ninf_check lookup_pressure (ninf_base (ninf_parse h p5)) c5
    · simp [Xf.lt] at h'
  exact ⟨hs _ _ _ _ _ (.inl hx), hs _ _ _ _ _ (.inr (.inl hx)), hs _ _ _ _ _ (.inr (.inr (.inl hx))),
    hs _ _ _ _ _ (.inr (.inr (.inr (.inl hx)))), hs _ _ _ _ _ (.inr (.inr (.inr (.inr hx)))),
    ht _ _ _ _ _ (.inl hx), ht _ _ _ _ _ (.inr (.inl hx)), ht _ _ _ _ _ (.inr (.inr (.inl hx))),
    ht _ _ _ _ _ (.inr (.inr (.inr (.inl hx)))), ht _ _ _ _ _ (.inr (.inr (.inr (.inr rfl))))⟩

/-- C121: `-inf` is refused in every argument of the obstacle functions. -/
theorem C121_blockage_negative {x : XIn} (hx : x.IsNinf) (a : XIn) (br : Xf) :
    Raises (DDT.blockageDiameterX reg x br) ∧ Raises (DDT.blockageRatioX reg x a) ∧
    Raises (DDT.blockageRatioX reg a x) := by
  refine ⟨raises_of fun v h => ?_, raises_of fun v h => ?_, raises_of fun v h => ?_⟩
  · unfold DDT.blockageDiameterX at h
    split at h
    · cases h
    · simp only [bind_eq_ok] at h
      obtain ⟨q, p, _, c, -⟩ := h
      exact ninf_check lookup_length (ninf_parse hx p) c
  all_goals
    simp only [DDT.blockageRatioX, bind_eq_ok] at h
    obtain ⟨q1, p1, q2, p2, _, c1, _, c2, -⟩ := h
  · exact ninf_check lookup_length (ninf_base (ninf_parse hx p1)) c1
  · exact ninf_check lookup_length (ninf_base (ninf_parse hx p2)) c2

/-- C121: `-inf` is refused in every argument of the bolt functions. -/
theorem C121_bolt_negative {x : XIn} (hx : x.IsNinf) (size cls : String) (a b c d : XIn) (n : Xf) :
    Raises (Bolt.stressAreasX reg size cls x a b) ∧ Raises (Bolt.stressAreasX reg size cls a x b) ∧
    Raises (Bolt.stressAreasX reg size cls a b x) ∧
    Raises (Bolt.safetyFactorsX reg x a n size cls b c d) ∧ Raises (Bolt.safetyFactorsX reg a x n size cls b c d) ∧
    Raises (Bolt.safetyFactorsX reg a b n size cls x c d) ∧ Raises (Bolt.safetyFactorsX reg a b n size cls c x d) ∧
    Raises (Bolt.safetyFactorsX reg a b n size cls c d x) := by
  have hc : ∀ {y : XIn} {kind : String} {dk : Dim} {q : QX}, supportedDims.lookup kind = some dk → y.IsNinf →
      checkedX y kind true = .ok q → False := by
    intro y kind dk q hk hy h
    cases y with
    | quantity q' =>
      simp only [checkedX, bind_eq_ok] at h
      obtain ⟨_, h, -⟩ := h
      exact ninf_check hk hy h
    | pair m s => cases h
    | other => exact hy.elim
  have ha : ∀ y1 y2 y3 : XIn, (y1.IsNinf ∨ y2.IsNinf ∨ y3.IsNinf) → Raises (Bolt.stressAreasX reg size cls y1 y2 y3) := by
    intro y1 y2 y3 hy
    refine raises_of fun v h => ?_
    simp only [Bolt.stressAreasX, bind_eq_ok] at h
    obtain ⟨q1, c1, q2, c2, q3, c3, -⟩ := h
    rcases hy with h | h | h
    · exact hc lookup_pressure h c1
    · exact hc lookup_pressure h c2
    · exact hc lookup_length h c3
  have hs : ∀ y1 y2 y3 y4 y5 : XIn, (y1.IsNinf ∨ y2.IsNinf ∨ y3.IsNinf ∨ y4.IsNinf ∨ y5.IsNinf) →
      Raises (Bolt.safetyFactorsX reg y1 y2 n size cls y3 y4 y5) := by
    intro y1 y2 y3 y4 y5 hy
    refine raises_of fun v h => ?_
    simp only [Bolt.safetyFactorsX, bind_eq_ok] at h
    obtain ⟨q1, p1, q2, p2, q3, p3, q4, p4, q5, p5, _, c1, _, c2, _, c3, _, c4, _, c5, -⟩ := h
    rcases hy with h | h | h | h | h
    · exact ninf_check lookup_pressure (ninf_parse h p1) c1
    · exact ninf_check lookup_area (ninf_parse h p2) c2
    · exact ninf_check lookup_pressure (ninf_parse h p3) c3
    · exact ninf_check lookup_pressure (ninf_parse h p4) c4
    · exact ninf_check lookup_length (ninf_parse h p5) c5
  exact ⟨ha _ _ _ (.inl hx), ha _ _ _ (.inr (.inl hx)), ha _ _ _ (.inr (.inr hx)),
    hs _ _ _ _ _ (.inl hx), hs _ _ _ _ _ (.inr (.inl hx)), hs _ _ _ _ _ (.inr (.inr (.inl hx))),
    hs _ _ _ _ _ (.inr (.inr (.inr (.inl hx)))), hs _ _ _ _ _ (.inr (.inr (.inr (.inr hx))))⟩

end Negative

end Pypbomb
