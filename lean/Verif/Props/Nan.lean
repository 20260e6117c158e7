/-
Properties C84 and C85: NaN arguments.
-/
import Verif.Lemmas.Nan
import Verif.Props.Bolt
import Verif.Props.Tube

namespace Pypbomb
open QN

/-! ### Without NaN the functions are those of the other files -/

section Agree
variable {reg : Registry}

theorem C84_window_agrees (l w t p m : QIn) :
    Window.safetyFactorN reg (.ofQIn l) (.ofQIn w) (.ofQIn t) (.ofQIn p) (.ofQIn m) =
      (Window.safetyFactor reg l w t p m).map some := by
  unfold Window.safetyFactorN Window.safetyFactor Window.safetyFactorFormulaN Window.safetyFactorFormula
  simp only [ofQIn_parse, bind_map', map_bind', ofQ_toBase, ofQ_check, ofQ_div, ofQ_mul, ofQ_pow, ofQ_scale,
    ofQ_addNum, ofQ_toNumber]

theorem C84_thickness_agrees (l w p m : QIn) (sf : ℝ) :
    Window.minimumThicknessN reg (.ofQIn l) (.ofQIn w) (some sf) (.ofQIn p) (.ofQIn m) =
      (Window.minimumThickness reg l w (.num sf) p m).map ofQ := by
  unfold Window.minimumThicknessN Window.minimumThickness Window.thicknessFormulaN Window.thicknessFormula
  simp only [ofQIn_parse, bind_map', map_bind', ofQ_toBase, ofQ_check, ofQ_div, ofQ_mul, ofQ_pow, ofQ_scale,
    ofQ_addNum, ofQ_convert, Flt.lt_some, Flt.op1_some, decide_eq_true_eq, map_ite', map_err', ofQ_unit]

theorem C84_blockage_diameter_agrees (x : QIn) (br : ℝ) :
    DDT.blockageDiameterN reg (.ofQIn x) (some br) = (DDT.blockageDiameter reg x (.num br)).map ofQ := by
  unfold DDT.blockageDiameterN DDT.blockageDiameter
  simp only [ofQIn_parse, bind_map', map_bind', ofQ_check, ofQ_scale, ofQ_divNum, Flt.lt_some, Flt.op1_some,
    decide_eq_true_eq, map_ite', map_err', ok_bind]

theorem C84_blockage_ratio_agrees (x y : QIn) :
    DDT.blockageRatioN reg (.ofQIn x) (.ofQIn y) = (DDT.blockageRatio reg x y).map some := by
  unfold DDT.blockageRatioN DDT.blockageRatio
  simp only [ofQIn_parse, bind_map', map_bind', ofQ_toBase, ofQ_check, ofQ_mag, Option.some.injEq, ofQ_ge,
    map_ite', map_err', Flt.op2_some, map_ok']

theorem C84_max_stress_agrees (x : QIn) (material : String) (welded : Bool) :
    Tube.maxStressN reg (.ofQIn x) material welded = (Tube.maxStress reg x material welded).map ofQ := by
  unfold Tube.maxStressN Tube.maxStress
  simp only [ofQIn_parse, bind_map', map_bind', ofQ_mag, ofQ_convert, map_ite', map_err', Flt.op1_some, map_ok',
    mk_some]

theorem C84_max_pressure_agrees (id od stress : Quantity) (sf : ℝ) :
    Tube.maxPressureN (ofQ id) (ofQ od) (ofQ stress) (some sf) = (Tube.maxPressure id od stress sf).map ofQ := by
  unfold Tube.maxPressureN Tube.maxPressure
  simp only [bind_map', map_bind', ofQ_add, ofQ_sub, ofQ_divNum, ofQ_scale, ofQ_mul, ofQ_div]

theorem fdiv_some (x y : ℝ) : DDT.fdiv (some x) (some y) = (pyDiv x y).map some := by
  unfold DDT.fdiv pyDiv
  simp only [Option.some.injEq, map_ite']; rfl

theorem eq41_agrees (r : ℕ) (rho mu : ℝ) (laminar sound : Quantity) (sigma : ℝ) (tube : Quantity) (br : ℝ) :
    DDT.eq41N r (some rho) (some mu) (ofQ laminar) (ofQ sound) (some sigma) (ofQ tube) (some br) =
      (DDT.eq41 r rho mu laminar sound sigma tube br).map ofQ := by
  unfold DDT.eq41N DDT.eq41
  simp only [mk_some, bind_map', map_bind', ofQ_toBase, ofQ_div, ofQ_mul, ofQ_pow, ofQ_scale, ofQ_divNum, ofQ_log,
    ofQ_convert, Flt.op1_some, fdiv_some, ofQ_unit]

theorem eq44_agrees (laminar sound : Quantity) (sigma : ℝ) (tube : Quantity) (br : ℝ) :
    DDT.eq44N (ofQ laminar) (ofQ sound) (some sigma) (ofQ tube) (some br) =
      (DDT.eq44 laminar sound sigma tube br).map ofQ := by
  unfold DDT.eq44N DDT.eq44
  simp only [bind_map', map_bind', ofQ_div, ofQ_mul, ofQ_scale, ofQ_rdiv, ofQ_convert, Flt.op1_some, fdiv_some,
    ofQ_unit]

theorem C84_run_up_agrees (rhoMu : Py (ℝ × ℝ)) (laminar sound : Quantity) (sigma : ℝ) (tube : Quantity) (br : ℝ) :
    DDT.runUpChoiceN reg (rhoMu.map fun x => (some x.1, some x.2)) (ofQ laminar) (ofQ sound) (some sigma) (ofQ tube)
        (some br) = (DDT.runUpChoice reg rhoMu laminar sound sigma tube br).map ofQ := by
  unfold DDT.runUpChoiceN DDT.runUpChoice
  simp only [Flt.le_some, decide_eq_true_eq, map_ite', map_bind', bind_map', eq41_agrees, eq44_agrees, map_ok']
  rfl

theorem crit_agrees (id od modulus density : Quantity) (nu : ℝ) :
    Tube.critVelocityN (ofQ id) (ofQ od) (ofQ modulus) (ofQ density) (some nu) =
      (Tube.critVelocity id od modulus density nu).map ofQ := by
  unfold Tube.critVelocityN Tube.critVelocity
  simp only [bind_map', map_bind', ofQ_add, ofQ_sub, ofQ_divNum, ofQ_scale, ofQ_mul, ofQ_div, ofQ_pow, Flt.op1_some]

theorem C85_dlf_agrees (id od v e d : QIn) (nu pm : ℝ) :
    Tube.dynamicLoadFactorN (.ofQIn id) (.ofQIn od) (.ofQIn v) (.ofQIn e) (.ofQIn d) (some nu) (some pm) =
      Tube.dynamicLoadFactor id od v e d nu pm := by
  unfold Tube.dynamicLoadFactorN Tube.dynamicLoadFactor
  simp only [ofQIn_checked, bind_map', crit_agrees, ofQ_scale, ofQ_convert, Flt.op1_some, Flt.lt_some,
    decide_eq_true_eq, ofQ_mag]

theorem shearArea_agrees (a b c d e : Quantity) :
    Bolt.shearAreaN (ofQ a) (ofQ b) (ofQ c) (ofQ d) (ofQ e) = (Bolt.shearArea a b c d e).map ofQ := by
  unfold Bolt.shearAreaN Bolt.shearArea
  simp only [bind_map', map_bind', ofQ_add, ofQ_sub, ofQ_rdiv, ofQ_scale, ofQ_mul]

theorem tensileArea_agrees (a b c d : Quantity) :
    Bolt.tensileAreaN reg (ofQ a) (ofQ b) (ofQ c) (ofQ d) = (Bolt.tensileArea reg a b c d).map ofQ := by
  unfold Bolt.tensileAreaN Bolt.tensileArea
  simp only [mk_some, bind_map', map_bind', map_ite', ofQ_lt, ofQ_sub, ofQ_rdiv, ofQ_scale, ofQ_divNum, ofQ_pow]

theorem minEngagement_agrees (a b c d e : Quantity) :
    Bolt.minEngagementN (ofQ a) (ofQ b) (ofQ c) (ofQ d) (ofQ e) = (Bolt.minEngagement a b c d e).map ofQ := by
  unfold Bolt.minEngagementN Bolt.minEngagement
  simp only [bind_map', map_bind', ofQ_addNum, ofQ_sub, ofQ_div, ofQ_scale, ofQ_mul]

/-- The areas as floats. -/
def liftAreas (a : Bolt.Areas) : Bolt.AreasN := ⟨ofQ a.plate, ofQ a.screw, ofQ a.minEngagement, a.warned⟩

theorem C85_areas_agree (size cls : String) (sb sp len : QIn) :
    Bolt.stressAreasN reg size cls (.ofQIn sb) (.ofQIn sp) (.ofQIn len) =
      (Bolt.stressAreas reg size cls sb sp len).map liftAreas := by
  unfold Bolt.stressAreasN Bolt.stressAreas
  have hr : ∀ q, Bolt.reregN reg (ofQ q) = ofQ (Bolt.rereg reg q) := fun _ => rfl
  have hi : ∀ (c : Bool) (q q' : Quantity), (if c = true then ofQ q else ofQ q') = ofQ (if c = true then q else q') := by
    intro c q q'; split <;> rfl
  cases parseDigits (splitLast '-' size) <;>
  simp only [ofQIn_checkArg, bind_map', map_bind', hr, mk_some, tensileArea_agrees, shearArea_agrees, ofQ_lt,
    ofQ_mul, ofQ_div, minEngagement_agrees, map_ok', map_err', liftAreas, hi, ok_bind, err_bind]

theorem C85_safety_factors_agree (p a sb sp len : QIn) (n : ℝ) (size cls : String) :
    Bolt.safetyFactorsN reg (.ofQIn p) (.ofQIn a) (some n) size cls (.ofQIn sb) (.ofQIn sp) (.ofQIn len) =
      (Bolt.safetyFactors reg p a n size cls sb sp len).map fun x => (some x.1, some x.2) := by
  unfold Bolt.safetyFactorsN Bolt.safetyFactors
  have hr : ∀ q, Bolt.reregN reg (ofQ q) = ofQ (Bolt.rereg reg q) := fun _ => rfl
  have ha : ∀ a b c : Quantity, Bolt.stressAreasN reg size cls (.quantity (ofQ a)) (.quantity (ofQ b))
      (.quantity (ofQ c)) = (Bolt.stressAreas reg size cls (.quantity a) (.quantity b) (.quantity c)).map liftAreas :=
    fun a b c => C85_areas_agree size cls (.quantity a) (.quantity b) (.quantity c)
  simp only [ofQIn_parse, bind_map', map_bind', ofQ_check, mk_some, ofQ_sub, ofQ_mul, ofQ_divNum, ofQ_div,
    ofQ_toNumber, ha, liftAreas, hr, map_ok']

/-- The shock states as floats. -/
def liftShock (s : Tube.Shock) : Tube.ShockN := ⟨ofQ s.cjSpeed, some s.cjP, some s.reflectedP⟩

/-- The outcome as floats. -/
def liftFound (f : Tube.Found) : Tube.FoundN :=
  ⟨ofQ f.pressure, f.dlf, some f.error, f.updates, f.evaluated.map ofQ⟩

theorem search_agrees {shock : Quantity → Py Tube.Shock} {shockN : QN → Py Tube.ShockN} {dlfOf : Quantity → Py ℝ}
    {dlfN : QN → Py ℝ} (hs : ∀ p, shockN (ofQ p) = (shock p).map liftShock) (hd : ∀ v, dlfN (ofQ v) = dlfOf v)
    {useDlf : Bool} {state : String} {m tol : ℝ} (n : ℕ) : ∀ p s dlf err k ev,
    Tube.searchN shockN dlfN useDlf state (some m) (some tol) n (ofQ p) (liftShock s) dlf (some err) k (ev.map ofQ) =
      (Tube.search shock dlfOf useDlf state m tol n p s dlf err k ev).map liftFound := by
  induction n with
  | zero => intros; rfl
  | succ n ih =>
    intro p s dlf err k ev
    have hsel : ∀ s : Tube.Shock, (liftShock s).selected state = some (s.selected state) := by
      intro s; unfold Tube.ShockN.selected Tube.Shock.selected; split <;> rfl
    have hsp : ∀ s : Tube.Shock, (liftShock s).cjSpeed = ofQ s.cjSpeed := fun _ => rfl
    have hrp : ∀ s : Tube.Shock, (liftShock s).reflectedP = some s.reflectedP := fun _ => rfl
    have hl : ∀ v, Tube.loopDlfN dlfN useDlf (ofQ v) = Tube.loopDlf dlfOf useDlf v := by
      intro v; unfold Tube.loopDlfN Tube.loopDlf; rw [hd]
    have hev : ∀ (ev : List Quantity) p, ev.map ofQ ++ [ofQ p] = (ev ++ [p]).map ofQ := by simp
    unfold Tube.searchN Tube.search
    simp only [Flt.lt_some, Flt.op1_some, decide_eq_true_eq, map_ite', map_bind', hrp, ofQ_scale, bind_map',
      ofQ_divNum, hs, hsp, hl, Option.some.injEq, hsel, Flt.op2_some, hev, ih, map_ok', map_err', liftFound]

theorem C85_max_initial_agrees {reg : Registry} {shock : Quantity → Py Tube.Shock} {shockN : QN → Py Tube.ShockN}
    {dlfOf : Quantity → Py ℝ} {dlfN : QN → Py ℝ} (hs : ∀ p, shockN (ofQ p) = (shock p).map liftShock)
    (hd : ∀ v, dlfN (ofQ v) = dlfOf v) (max : Quantity) (useDlf : Bool) (tol : ℝ) (maxIter : ℤ) (state : String) :
    Tube.maxInitialPressureN reg shockN dlfN (ofQ max) useDlf (some tol) maxIter state =
      (Tube.maxInitialPressure reg shock dlfOf max useDlf tol maxIter state).map liftFound := by
  have hsp : ∀ s : Tube.Shock, (liftShock s).cjSpeed = ofQ s.cjSpeed := fun _ => rfl
  unfold Tube.maxInitialPressureN Tube.maxInitialPressure
  simp only [map_ite', map_err', mk_some, hs, bind_map', map_bind', hsp, hd, ofQ_mag, Option.some.injEq,
    Flt.op1_some, Flt.op2_some, ← search_agrees hs hd, List.map_cons, List.map_nil]

theorem checkRange_agrees (q : Quantity) (lo hi : ℝ) (u : PUnit) (r : ℕ) (msg : String) :
    Flange.checkRangeN (ofQ q) lo hi u r msg = Flange.checkRange q lo hi u r msg := by
  unfold Flange.checkRangeN Flange.checkRange
  simp only [mk_some, ofQ_lt]

theorem checkMax_agrees (q : Quantity) (m : ℝ) (r : ℕ) :
    Flange.checkMaxPressureN (ofQ q) m r = Flange.checkMaxPressure q m r := by
  unfold Flange.checkMaxPressureN Flange.checkMaxPressure
  simp only [mk_some, ofQ_lt]

theorem withLimits_map {α β : Type} (f : α → β) (g : List (String × Flange.Frame) → Py α) :
    (Flange.withLimits g).map f = Flange.withLimits fun l => (g l).map f := by
  unfold Flange.withLimits; rw [map_bind']

theorem outReg_agrees (u : Registry) (x : QIn) : Flange.outRegN u (.ofQIn x) = Flange.outReg u x := by
  cases x <;> rfl

theorem C84_get_class_agrees (u : Registry) (p t : QIn) (m : Tube.MatIn) :
    Flange.getClassN u reg (.ofQIn p) (.ofQIn t) m = Flange.getClass u reg p t m := by
  have hp : ∀ q : Quantity, parseN (.quantity (ofQ q)) u = (parseQ (.quantity q) u).map ofQ := fun _ => rfl
  have hf : ∀ f t p, Flange.firstClassN f t (some p) = Flange.firstClass f t p := by
    intro f t p; unfold Flange.firstClassN Flange.firstClass
    simp only [Flt.le_some]; congr!
  unfold Flange.getClassN Flange.getClass
  simp only [ofQIn_parse, bind_map', ofQ_check, hp, checkMax_agrees, checkRange_agrees, ofQ_phys, Flange.indexN,
    ok_bind, hf]

theorem C84_flange_max_pressure_agrees (u : Registry) (cls : String) (t : QIn) (m : Tube.MatIn) :
    Flange.getMaxPressureN u cls (.ofQIn t) m = (Flange.getMaxPressure u cls t m).map ofQ := by
  unfold Flange.getMaxPressureN Flange.getMaxPressure
  simp only [withLimits_map, ofQIn_parse, bind_map', map_bind', checkRange_agrees, ofQ_phys, Flange.indexN, ok_bind,
    map_ite', map_err', map_ok', outReg_agrees, mk_some]

theorem C84_flange_max_temperature_agrees (u : Registry) (cls : String) (p : QIn) (m : Tube.MatIn) :
    Flange.getMaxTemperatureN u cls (.ofQIn p) m = (Flange.getMaxTemperature u cls p m).map ofQ := by
  unfold Flange.getMaxTemperatureN Flange.getMaxTemperature
  simp only [withLimits_map, ofQIn_parse, bind_map', map_bind', checkRange_agrees, ofQ_phys, Flange.indexN, ok_bind,
    map_ite', map_err', map_ok', outReg_agrees, mk_some]

end Agree

/-! ### C84: NaN in, NaN out (or an exception) -/

section Strict
variable {reg : Registry} {l w t p m x y : NIn} {sf br : Flt}

/-- C84: whenever `Window.safety_factor` returns, the factor is NaN exactly if an argument is. -/
theorem C84_window_nan {v : Flt} (h : Window.safetyFactorN reg l w t p m = .ok v) :
    v = none ↔ l.IsNan ∨ w.IsNan ∨ t.IsNan ∨ p.IsNan ∨ m.IsNan := by
  simp only [Window.safetyFactorN, Window.safetyFactorFormulaN, bind_eq_ok] at h
  obtain ⟨ql, h1, qw, h2, qt, h3, qp, h4, qm, h5, -, -, -, -, -, -, -, -, -, -, a, k1, b, k2, c, k3, d, k4, e, k5, f, k6,
    g, k7, i, k8, j, k9, r, k10, k11⟩ := h
  rw [toNumber_none k11, div_none k10, mul_none k8, pow_none k3, div_none k2, mul_none k7, scale_none k4,
    addNum_none k6, pow_none k5, div_none k1, scale_none k9]
  simp only [toBase_none, parse_none h1, parse_none h2, parse_none h3, parse_none h4, parse_none h5, reduceCtorEq,
    false_or]
  tauto

/-- C84: the same for `Window.minimum_thickness`, the safety factor included. -/
theorem C84_thickness_nan {q : QN} (h : Window.minimumThicknessN reg l w sf p m = .ok q) :
    q.mag = none ↔ l.IsNan ∨ w.IsNan ∨ sf = none ∨ p.IsNan ∨ m.IsNan := by
  simp only [Window.minimumThicknessN, bind_eq_ok] at h
  obtain ⟨ql, h1, qw, h2, qp, h4, qm, h5, -, -, -, -, -, -, -, -, h⟩ := h
  split at h
  · cases h
  simp only [Window.thicknessFormulaN, bind_eq_ok] at h
  obtain ⟨a, k1, b, k2, c, k3, d, k4, e, k5, f, k6, g, k7, i, k8, k9⟩ := h
  rw [convert_none k9, mul_none k8, scale_none k2, pow_none k7, div_none k6, mul_none k5, addNum_none k4, pow_none k3,
    div_none k1]
  simp only [toBase_none, parse_none h1, parse_none h2, parse_none h4, parse_none h5, reduceCtorEq, false_or,
    Flt.op1_none_iff]
  tauto

/-- C84: a NaN blockage ratio is refused by `calculate_blockage_diameter`; a NaN diameter gives NaN. -/
theorem C84_blockage_diameter_nan :
    (br = none → IsValueError (DDT.blockageDiameterN reg x br)) ∧
    ∀ q, DDT.blockageDiameterN reg x br = .ok q → (q.mag = none ↔ x.IsNan) := by
  constructor
  · rintro rfl; exact ⟨_, by unfold DDT.blockageDiameterN; simp; rfl⟩
  · intro q h
    unfold DDT.blockageDiameterN at h
    split at h
    · cases h
    rename_i hb
    have hb : br ≠ none := by rintro rfl; simp at hb
    simp only [bind_eq_ok] at h
    obtain ⟨a, h1, -, -, c, h2, h3⟩ := h
    rw [scale_none h3, divNum_none h2, parse_none h1]
    simp [hb]

/-- C84: whenever `calculate_blockage_ratio` returns, the ratio is NaN exactly if a diameter is. -/
theorem C84_blockage_ratio_nan {v : Flt} (h : DDT.blockageRatioN reg x y = .ok v) :
    v = none ↔ x.IsNan ∨ y.IsNan := by
  simp only [DDT.blockageRatioN, bind_eq_ok] at h
  obtain ⟨a, h1, b, h2, -, -, -, -, h⟩ := h
  split at h
  · cases h
  obtain ⟨c, -, h⟩ := bind_eq_ok.mp h
  split at h
  · cases h
  · cases h
    simp only [Flt.op2_none_iff, toBase_none, parse_none h1, parse_none h2]
    tauto

theorem fdiv_none {a b c : Flt} (h : DDT.fdiv a b = .ok c) : c = none ↔ a = none ∨ b = none := by
  unfold DDT.fdiv at h; split at h <;> cases h; simp

theorem eq41_nan {r : ℕ} {rho mu sigma : Flt} {laminar sound tube q : QN}
    (h : DDT.eq41N r rho mu laminar sound sigma tube br = .ok q) :
    q.mag = none ↔ rho = none ∨ mu = none ∨ laminar.mag = none ∨ sound.mag = none ∨ sigma = none ∨ tube.mag = none ∨
      br = none := by
  simp only [DDT.eq41N, bind_eq_ok] at h
  obtain ⟨nu, k1, de, k2, den, k3, a, k4, b, k5, b3, k6, ab, k7, ga, k8, dh, k9, gc, k10, gd, k11, lg, k12, t1, k13, t2,
    k14, k15⟩ := h
  rw [convert_none k15, mul_none k14, scale_none k13, Flt.op1_none_iff, log_none k12, scale_none k11, fdiv_none k9,
    divNum_none k10, pow_none k8, mul_none k7, div_none k4, scale_none k3, pow_none k6, div_none k5, toBase_none,
    div_none k2, div_none k1]
  simp only [Flt.op1_none_iff, reduceCtorEq, false_or]
  tauto

theorem eq44_nan {sigma : Flt} {laminar sound tube q : QN}
    (h : DDT.eq44N laminar sound sigma tube br = .ok q) :
    q.mag = none ↔ laminar.mag = none ∨ sound.mag = none ∨ sigma = none ∨ tube.mag = none ∨ br = none := by
  simp only [DDT.eq44N, bind_eq_ok] at h
  obtain ⟨l1, k1, l2, k2, ct, k3, lhs, k4, rhs, k5, ru, k6, k7⟩ := h
  rw [convert_none k7, rdiv_none k6, fdiv_none k5, div_none k4, scale_none k2, scale_none k1, mul_none k3]
  simp only [Flt.op1_none_iff, reduceCtorEq, false_or]
  tauto

theorem interpN_none {a b c : Flt} : DDT.interpN a b c = none ↔ a = none ∨ b = none ∨ c = none := by
  rcases a with _ | a <;> rcases b with _ | b <;> rcases c with _ | c <;> simp [DDT.interpN]

/-- C84: whatever the flame data, a NaN blockage ratio (which the range test lets through), tube diameter, flame
speed, sound speed or density ratio gives a NaN run-up distance or an exception, never a number. -/
theorem C84_run_up_nan {rhoMu : Py (Flt × Flt)} {sigma : Flt} {laminar sound tube q : QN}
    (h : DDT.runUpChoiceN reg rhoMu laminar sound sigma tube br = .ok q)
    (hn : laminar.mag = none ∨ sound.mag = none ∨ sigma = none ∨ tube.mag = none ∨ br = none) : q.mag = none := by
  unfold DDT.runUpChoiceN at h
  split at h
  · exact (eq44_nan h).mpr hn
  split at h
  · obtain ⟨rm, -, h⟩ := bind_eq_ok.mp h
    rw [eq41_nan h]; tauto
  · simp only [bind_eq_ok] at h
    obtain ⟨rm, -, q1, h1, q2, h2, h⟩ := h
    cases h
    show DDT.interpN _ _ _ = none
    rw [interpN_none, eq41_nan h1]; tauto

/-- C84: a NaN temperature gives a NaN allowable stress. -/
theorem C84_max_stress_nan {material : String} {welded : Bool} {q : QN}
    (h : Tube.maxStressN reg x material welded = .ok q) : q.mag = none ↔ x.IsNan := by
  simp only [Tube.maxStressN, bind_eq_ok] at h
  obtain ⟨a, h1, pts, -, h⟩ := h
  split at h
  · obtain ⟨b, h2, h⟩ := bind_eq_ok.mp h
    cases h
    rw [Flt.op1_none_iff, convert_none h2, parse_none h1]
  · cases h

/-- C84: whenever `calculate_max_pressure` returns, the limit is NaN exactly if an argument is. -/
theorem C84_max_pressure_nan {id od stress q : QN} (h : Tube.maxPressureN id od stress sf = .ok q) :
    q.mag = none ↔ id.mag = none ∨ od.mag = none ∨ stress.mag = none ∨ sf = none := by
  simp only [Tube.maxPressureN, bind_eq_ok] at h
  obtain ⟨a, k1, b, k2, c, k3, d, k4, e, k5, f, k6, g, k7, k8⟩ := h
  rw [div_none k8, mul_none k6, scale_none k5, divNum_none k4, sub_none k3, scale_none k7, divNum_none k2, add_none k1]
  simp only [reduceCtorEq, false_or, or_false]
  tauto

/-- C84: the flange routines raise for NaN, whatever the material, class and registries. -/
theorem C84_flange_nan (u : Registry) (cls : String) (mat : Tube.MatIn) (hx : x.IsNan) :
    (∀ y, Raises (Flange.getClassN u reg x y mat)) ∧ (∀ y, Raises (Flange.getClassN u reg y x mat)) ∧
    Raises (Flange.getMaxPressureN u cls x mat) ∧ Raises (Flange.getMaxTemperatureN u cls x mat) := by
  have key : ∀ {α : Type} {z : Py α}, (∀ a, z ≠ .ok a) → Raises z := by
    intro α z h; cases z with
    | error e => exact ⟨e, rfl⟩
    | ok a => exact absurd rfl (h a)
  have hidx : ∀ {r : Registry} {q : QN} {v}, parseN x r = .ok q → Flange.indexN q.phys ≠ .ok v := by
    intro r q v h h'
    rw [phys_none.mpr ((parse_none h).mpr hx)] at h'; cases h'
  have hidx2 : ∀ {r r' : Registry} {q q' : QN} {v}, parseN x r = .ok q → parseN (.quantity q) r' = .ok q' →
      Flange.indexN q'.phys ≠ .ok v := by
    intro r r' q q' v h h' h2
    rw [phys_none.mpr ((parse_none h').mpr ((parse_none h).mpr hx))] at h2; cases h2
  refine ⟨fun y => key fun a h => ?_, fun y => key fun a h => ?_, key fun a h => ?_, key fun a h => ?_⟩
  · simp only [Flange.getClassN, Flange.withLimits, bind_eq_ok] at h
    obtain ⟨lim, -, p, h1, t, -, -, -, -, -, p', h2, t', -, g, -, k, -, -, -, -, -, tk, -, h⟩ := h
    rw [phys_none.mpr ((parse_none h2).mpr ((parse_none h1).mpr hx))] at h
    unfold Flange.firstClassN at h
    simp at h
  · simp only [Flange.getClassN, Flange.withLimits, bind_eq_ok] at h
    obtain ⟨lim, -, p, -, t, h1, -, -, -, -, p', -, t', h2, g, -, k, -, -, -, -, -, tk, h, -⟩ := h
    exact hidx2 h1 h2 h
  · simp only [Flange.getMaxPressureN, Flange.withLimits, bind_eq_ok] at h
    obtain ⟨lim, -, g, -, -, -, t, h1, -, -, tk, h2, -⟩ := h
    exact hidx h1 h2
  · simp only [Flange.getMaxTemperatureN, Flange.withLimits, bind_eq_ok] at h
    obtain ⟨lim, -, g, -, -, -, t, h1, h⟩ := h
    split at h
    · cases h
    · simp only [bind_eq_ok] at h
      obtain ⟨-, -, tk, h2, -⟩ := h
      exact hidx h1 h2

end Strict

/-! ### C85: where a NaN disappears -/

section Swallow
variable {reg : Registry} {id od v e d sb sp len p a : NIn} {nu pm n : Flt} {size cls : String}

/-- C85 (the safe case): with any NaN argument the dynamic load factor is 4, the most cautious of 1, 2 and 4, unless
the call raises; a NaN `plus_or_minus` raises. -/
theorem C85_dlf_nan_partial {f : ℝ} (h : Tube.dynamicLoadFactorN id od v e d nu pm = .ok f)
    (hn : id.IsNan ∨ od.IsNan ∨ v.IsNan ∨ e.IsNan ∨ d.IsNan ∨ nu = none) : f = 4 ∧ pm ≠ none := by
  simp only [Tube.dynamicLoadFactorN, bind_eq_ok] at h
  obtain ⟨qi, h1, qo, h2, qv, h3, qe, h4, qd, h5, h⟩ := h
  split at h
  · cases h
  rename_i hpm
  refine ⟨?_, by rintro rfl; simp at hpm⟩
  obtain ⟨cr, k0, h⟩ := bind_eq_ok.mp h
  simp only [bind_eq_ok] at h
  obtain ⟨hi, k1, hi', k2, lo, k3, lo', k4, v', k5, h⟩ := h
  have hc : cr.mag = none ↔ id.IsNan ∨ od.IsNan ∨ e.IsNan ∨ d.IsNan ∨ nu = none := by
    simp only [Tube.critVelocityN, bind_eq_ok] at k0
    obtain ⟨a1, j1, a2, j2, a3, j3, a4, j4, a5, j5, a6, j6, a7, j7, a8, j8, a9, j9, b1, j10, b2, j11, b3, j12, b4, j13,
      j14⟩ := k0
    rw [pow_none j14, div_none j13, mul_none j7, pow_none j5, pow_none j6, divNum_none j4, sub_none j3, scale_none j12,
      mul_none j11, scale_none j9, pow_none j8, pow_none j10, divNum_none j2, add_none j1]
    simp only [checked_none h1, checked_none h2, checked_none h4, checked_none h5, reduceCtorEq, false_or, or_false,
      Flt.op1_none_iff]
    clear h1 h2 h3 h4 h5 h hpm hn
    generalize id.IsNan = A, od.IsNan = B, e.IsNan = C, d.IsNan = D, (nu = none) = E
    tauto
  have hv : v'.mag = none ↔ v.IsNan := by rw [convert_none k5, checked_none h3]
  have hlo : cr.mag = none → lo'.mag = none := fun hh => by rw [convert_none k4, scale_none k3]; exact .inr hh
  have hhi : cr.mag = none → hi'.mag = none := fun hh => by rw [convert_none k2, scale_none k1]; exact .inr hh
  have : v'.mag = none ∨ cr.mag = none := by rw [hv, hc]; tauto
  rcases this with hh | hh
  · simpa [hh] using h.symm
  · simpa [hlo hh, hhi hh] using h.symm

/-- C85 is false of the code: with a NaN pressure limit, or a NaN tolerance, `calculate_max_initial_pressure` returns
1 atm after no update, whatever the tube, the mixture and the iteration limit. -/
theorem C85_max_initial_violated {shock : QN → Py Tube.ShockN} {dlfOf : QN → Py ℝ} {max : QN} {tol : Flt}
    {useDlf : Bool} {maxIter : ℤ} {state : String} {s : Tube.ShockN} {f : ℝ}
    (hst : state = "reflected" ∨ state = "cj") (hs : shock ⟨some 1, PUnit.atm, reg.id⟩ = .ok s)
    (hd : dlfOf s.cjSpeed = .ok f) (hm : max.mag ≠ some 0) (hn : max.mag = none ∨ tol = none) :
    ∃ r, Tube.maxInitialPressureN reg shock dlfOf max useDlf tol maxIter state = .ok r ∧
      r.pressure = ⟨some 1, PUnit.atm, reg.id⟩ ∧ r.dlf = f ∧ r.updates = 0 := by
  have h0 : ¬ (state ≠ "reflected" ∧ state ≠ "cj") := by tauto
  unfold Tube.maxInitialPressureN
  rw [if_neg h0]
  simp only [hs, hd, ok_bind, if_neg hm]
  cases maxIter.toNat with
  | zero => exact ⟨_, rfl, rfl, rfl, rfl⟩
  | succ k =>
    unfold Tube.searchN
    rw [if_neg (by rcases hn with hn | hn <;> simp [hn])]
    exact ⟨_, rfl, rfl, rfl, rfl⟩

/-- C85 is false of the code: a NaN post-shock pressure ends the search as if it had converged, and the trial pressure
at which it occurred is returned. -/
theorem C85_nan_state_violated {shock : QN → Py Tube.ShockN} {dlfOf : QN → Py ℝ} {useDlf : Bool} {state : String}
    {m tol p P err f f1 : ℝ} {u : PUnit} {s s1 : Tube.ShockN} {k j : ℕ} {ev : List QN} (hu : u.offset = 0)
    (ht : tol < |err|) (hP : s.reflectedP = some P) (hf : f * P ≠ 0) (hm : m ≠ 0)
    (hs : shock ⟨some (m * p / (f * P)), u, reg.id⟩ = .ok s1) (hd : Tube.loopDlfN dlfOf useDlf s1.cjSpeed = .ok f1)
    (hnan : s1.selected state = none) :
    Tube.searchN shock dlfOf useDlf state (some m) (some tol) (k + 1) ⟨some p, u, reg.id⟩ s f (some err) j ev =
      .ok ⟨⟨some (m * p / (f * P)), u, reg.id⟩, f1, none, j + 1, ev ++ [⟨some (m * p / (f * P)), u, reg.id⟩]⟩ := by
  unfold Tube.searchN
  rw [if_pos (by simpa using ht)]
  simp only [QN.scale, QN.noOffset, hu, if_true, ok_bind, QN.divNum, hP, Flt.op1_some, Flt.op2_some, Option.some.injEq,
    if_neg hf, hs, hd, if_neg hm, hnan, Flt.op2_none_left]
  cases k with
  | zero => rfl
  | succ k =>
    unfold Tube.searchN
    rw [if_neg (by simp)]

/-- What `calculate_stress_areas` does with NaN: the plate area is NaN exactly for a NaN engagement length, the
minimum engagement exactly if any of the three is NaN, and the screw area is always a number. -/
theorem C85_areas_nan_partial {r : Bolt.AreasN} (h : Bolt.stressAreasN reg size cls sb sp len = .ok r) :
    (r.plate.mag = none ↔ len.IsNan) ∧ r.screw.mag ≠ none ∧
    (r.minEngagement.mag = none ↔ sb.IsNan ∨ sp.IsNan ∨ len.IsNan) ∧ (len.IsNan → r.warned = false) := by
  have hsh : ∀ {a b c d e q : QN}, Bolt.shearAreaN a b c d e = .ok q →
      (q.mag = none ↔ a.mag = none ∨ b.mag = none ∨ c.mag = none ∨ d.mag = none ∨ e.mag = none) := by
    intro a b c d e q h
    simp only [Bolt.shearAreaN, bind_eq_ok] at h
    obtain ⟨a1, j1, a2, j2, a3, j3, a4, j4, a5, j5, a6, j6, a7, j7, a8, j8, j9⟩ := h
    rw [mul_none j9, mul_none j3, mul_none j2, scale_none j1, add_none j8, rdiv_none j5, scale_none j4, scale_none j7,
      sub_none j6]
    simp only [reduceCtorEq, false_or]; tauto
  have hte : ∀ {a b c d q : QN}, Bolt.tensileAreaN reg a b c d = .ok q → b.mag ≠ none → c.mag ≠ none → d.mag ≠ none →
      q.mag ≠ none := by
    intro a b c d q h hb hc hd
    simp only [Bolt.tensileAreaN] at h
    obtain ⟨wk, -, h⟩ := bind_eq_ok.mp h
    split at h
    · simp only [bind_eq_ok] at h
      obtain ⟨a1, j1, a2, j2, a3, j3, j4⟩ := h
      rw [Ne, scale_none j4, pow_none j3, sub_none j2, rdiv_none j1]; simp; tauto
    · simp only [bind_eq_ok] at h
      obtain ⟨a0, j0, a1, j1, a2, j2, a3, j3, j4⟩ := h
      rw [Ne, scale_none j4, pow_none j3, sub_none j2, rdiv_none j1, divNum_none j0]; simp; tauto
  have hme : ∀ {a b c d e q : QN}, Bolt.minEngagementN a b c d e = .ok q →
      (q.mag = none ↔ a.mag = none ∨ b.mag = none ∨ c.mag = none ∨ d.mag = none ∨ e.mag = none) := by
    intro a b c d e q h
    simp only [Bolt.minEngagementN, bind_eq_ok] at h
    obtain ⟨a1, j1, a2, j2, a3, j3, a4, j4, a5, j5, a6, j6, a7, j7, a8, j8, j9⟩ := h
    rw [mul_none j9, div_none j8, scale_none j1, mul_none j7, scale_none j2, addNum_none j6, mul_none j5, scale_none j3,
      sub_none j4]
    simp only [reduceCtorEq, false_or]; tauto
  simp only [Bolt.stressAreasN, bind_eq_ok] at h
  obtain ⟨qb, h1, qp, h2, ql, h3, kn, -, es, -, en, -, ds, -, h⟩ := h
  cases hd : parseDigits (splitLast '-' size) with
  | none => rw [hd] at h; cases h
  | some k =>
    rw [hd] at h
    simp only [bind_eq_ok] at h
    obtain ⟨tp, -, bd, -, te, k1, sh, k2, fl, k3, pl, k4, jn, k5, jd, k6, j, k7, me, k8, h⟩ := h
    cases h
    have t0 := hte k1 (by simp) (by simp) (by simp)
    have s0 : sh.mag = none ↔ len.IsNan := by rw [hsh k2]; simp [Bolt.reregN, checked_none h3]
    have p0 : pl.mag = none ↔ len.IsNan := by rw [hsh k4]; simp [Bolt.reregN, checked_none h3]
    have w0 : len.IsNan → fl = false := fun hl => lt_nan k3 (.inl (s0.mpr hl))
    refine ⟨p0, ?_, ?_, w0⟩
    · dsimp only
      by_cases hl : len.IsNan
      · rw [w0 hl]; simpa using t0
      · split
        · rw [Ne, s0]; exact hl
        · exact t0
    · rw [hme k8, div_none k7, mul_none k5, mul_none k6, s0, p0]
      simp [Bolt.reregN, checked_none h1, checked_none h2, t0]
      tauto

/-- What `calculate_safety_factors` does with NaN: the plate factor is NaN if any argument it depends on is NaN; the
bolt factor is NaN for a NaN pressure, area, count or bolt strength only: a NaN engagement length is ignored. -/
theorem C85_safety_factors_nan_partial {b pl : Flt}
    (h : Bolt.safetyFactorsN reg p a n size cls sb sp len = .ok (b, pl)) :
    (pl = none ↔ p.IsNan ∨ a.IsNan ∨ n = none ∨ sp.IsNan ∨ len.IsNan) ∧
    (b = none ↔ p.IsNan ∨ a.IsNan ∨ n = none ∨ sb.IsNan) := by
  simp only [Bolt.safetyFactorsN, bind_eq_ok] at h
  obtain ⟨qp, h1, qa, h2, qb, h3, qs, h4, ql, h5, -, -, -, -, -, -, -, -, -, -, dp, k1, f, k2, f', k3, th, k4, s1, k5, b1,
    k6, b2, k7, s2, k8, p1, k9, p2, k10, h⟩ := h
  cases h
  obtain ⟨w1, w2, -, -⟩ := C85_areas_nan_partial k4
  have hf : f'.mag = none ↔ p.IsNan ∨ a.IsNan ∨ n = none := by
    rw [divNum_none k3, mul_none k2, sub_none k1, parse_none h1, parse_none h2]; simp; tauto
  constructor
  · rw [toNumber_none k10, div_none k9, div_none k8, hf, parse_none h4]
    simp only [Bolt.reregN, w1, NIn.IsNan, parse_none h5]; tauto
  · rw [toNumber_none k7, div_none k6, div_none k5, hf, parse_none h3]
    simp only [Bolt.reregN, w2]; tauto

/-- Dimension, multiplicative unit and registry of a quantity, without its magnitude. -/
structure Kind (q : QN) (d : Dim) (r : ℕ) : Prop where
  dim : q.unit.dim = d
  off : q.unit.offset = 0
  reg : q.reg = r

theorem Kind.cast {q : QN} {d e : Dim} {r : ℕ} (h : Kind q d r) (hd : d = e) : Kind q e r := hd ▸ h

theorem kind_of {q : Quantity} {d : Dim} {v : ℝ} {r : ℕ} (h : HasVal q d v r) : Kind (ofQ q) d r :=
  ⟨h.dim, h.off, h.reg⟩

theorem mul_kind {a b : QN} {d e : Dim} {r : ℕ} (ha : Kind a d r) (hb : Kind b e r) :
    ∃ c, a.mul b = .ok c ∧ Kind c (d.mul e) r := by
  obtain ⟨rfl, o1, rfl⟩ := ha
  obtain ⟨rfl, o2, hr⟩ := hb
  refine ⟨⟨Flt.op2 (· * ·) a.mag b.mag, a.unit.mul b.unit, a.reg⟩, ?_, rfl, rfl, rfl⟩
  simp only [QN.mul, QN.sameReg, QN.noOffset, o1, o2, hr, if_true, ok_bind]

theorem div_kind {a b : QN} {d e : Dim} {r : ℕ} (ha : Kind a d r) (hb : Kind b e r) (h0 : b.mag ≠ some 0) :
    ∃ c, a.div b = .ok c ∧ Kind c (d.div e) r := by
  obtain ⟨rfl, o1, rfl⟩ := ha
  obtain ⟨rfl, o2, hr⟩ := hb
  refine ⟨⟨Flt.op2 (· / ·) a.mag b.mag, a.unit.div b.unit, a.reg⟩, ?_, rfl, rfl, rfl⟩
  simp only [QN.div, QN.sameReg, QN.noOffset, o1, o2, hr, if_true, ok_bind, if_neg h0]

theorem toNumber_kind {a : QN} {r : ℕ} (ha : Kind a Dim.one r) (hn : a.mag = none) : a.toNumber = .ok none := by
  have : a.convert PUnit.dimensionless = .ok ⟨none, PUnit.dimensionless, a.reg⟩ := by
    unfold QN.convert
    rw [if_pos (show a.unit.dim = PUnit.dimensionless.dim from ha.dim), phys_none.mpr hn]; rfl
  unfold QN.toNumber
  rw [this]; rfl

open Quantity in
/-- The shear area for a NaN length is NaN (of the right kind). -/
theorem shear_nan {r : ℕ} {N : ℝ} {kn es en : ℝ} (n0 : N ≠ 0) {ql : QN} (hl : Kind ql Dim.length r)
    (hn : ql.mag = none) :
    ∃ q, Bolt.shearAreaN (ofQ ⟨N, PUnit.perInch, r⟩) ql (ofQ ⟨kn, PUnit.inch, r⟩) (ofQ ⟨es, PUnit.inch, r⟩)
      (ofQ ⟨en, PUnit.inch, r⟩) = .ok q ∧ Kind q Dim.area r ∧ q.mag = none := by
  have vn := Bolt.perInch_val N r
  have n0' : N / 0.0254 ≠ 0 := by positivity
  obtain ⟨c1, e1, h1, -⟩ := scale_spec Real.pi vn
  obtain ⟨c2, e2, h2⟩ := mul_kind (kind_of h1) hl
  obtain ⟨c3, e3, h3⟩ := mul_kind h2 (kind_of (Bolt.inch_val kn r))
  obtain ⟨c4, e4, h4, -⟩ := scale_spec 2 vn
  obtain ⟨c5, e5, h5⟩ := rdiv_spec 1 h4 (mul_ne_zero two_ne_zero n0')
  obtain ⟨c6, e6, h6, -⟩ := sub_spec (Bolt.inch_val es r) (Bolt.inch_val en r)
  obtain ⟨c7, e7, h7, -⟩ := scale_spec 0.57735 h6
  obtain ⟨c8, e8, h8, -⟩ := add_spec (h5.cast (e := Dim.length) (by dims) rfl) h7
  obtain ⟨c9, e9, h9⟩ := mul_kind h3 (kind_of h8)
  refine ⟨c9, ?_, h9.cast (by dims), ?_⟩
  · simp only [Bolt.shearAreaN, ofQ_scale, ofQ_rdiv, ofQ_sub, ofQ_add, bind_map', e1, e2, e3, e4, e5, e6, e7, e8, e9,
      ok_bind]
  · rw [mul_none e9, mul_none e3, mul_none e2]; exact .inl (.inl (.inr hn))

open Quantity in
theorem lt_nan_ok {a b : QN} {d : Dim} {r : ℕ} (ha : Kind a d r) (hb : Kind b d r) (hn : a.mag = none) :
    a.lt b = .ok false := by
  unfold QN.lt QN.sameReg
  rw [ha.reg, hb.reg, if_pos rfl, ok_bind, if_pos (by rw [ha.dim, hb.dim]), phys_none.mpr hn]
  simp

/-- C85 is false of the code: for every tabulated thread and every bolt and plate of positive strength, a NaN
engagement length gives the full tensile area as the screw area, with no warning. -/
theorem C85_bolt_length_violated {t : Bolt.Thread} {qb qp : Quantity} {sb sp : ℝ} {u : PUnit} {r : ℕ}
    (ht : Bolt.Tabulated size cls t)
    (hb : Bolt.IsPsi qb sb) (hp : Bolt.IsPsi qp sp) (sb0 : 0 ≤ sb) (sp0 : 0 < sp) (hu : u.dim = Dim.length)
    (ho : u.offset = 0) :
    ∃ a, Bolt.stressAreasN reg size cls (.quantity (ofQ qb)) (.quantity (ofQ qp)) (.quantity ⟨none, u, r⟩) = .ok a ∧
      a.plate.mag = none ∧ Kind a.plate Dim.area reg.id ∧ a.warned = false ∧
      ∃ q, a.screw = ofQ q ∧ HasVal q Dim.area (t.tensile sb * 0.0254 ^ 2) reg.id := by
  obtain ⟨r1, hb⟩ := hb
  obtain ⟨r2, hp⟩ := hp
  have ps : 0 < psiPa := PUnit.psi.pos
  have hs := ht.sound
  have hl := ht.lookup
  have hn : (t.tpi : ℝ) ≠ 0 := by exact_mod_cast hs.n.ne'
  have hn' : (t.tpi : ℝ) / 0.0254 ≠ 0 := by positivity
  have vsb := Bolt.rereg_val reg hb
  have vsp := Bolt.rereg_val reg hp
  have vn := Bolt.perInch_val (t.tpi : ℝ) reg.id
  have vk := Bolt.inch_val (t.minorMaxInt / 10000) reg.id
  have ve := Bolt.inch_val (t.pitchMinExt / 10000) reg.id
  obtain ⟨qA, eA, hA⟩ := Bolt.tensileArea_eval vsb (Bolt.inch_val (t.basic / 10000) reg.id) ve vn hn'
  have kl : Kind (Bolt.reregN reg ⟨none, u, r⟩) Dim.length reg.id := ⟨hu, ho, rfl⟩
  obtain ⟨qS, eS, kS, nS⟩ := shear_nan (kn := t.minorMaxInt / 10000) (es := t.pitchMinExt / 10000)
    (en := t.minorMaxInt / 10000) hn kl rfl
  obtain ⟨qP, eP, kP, nP⟩ := shear_nan (kn := t.majorMinExt / 10000) (es := t.majorMinExt / 10000)
    (en := t.pitchMaxInt / 10000) hn kl rfl
  have hcmp := lt_nan_ok kS (kind_of hA) nS
  obtain ⟨q1, e1, h1⟩ := mul_kind kS (kind_of vsb)
  obtain ⟨q2, e2, h2⟩ := mul_kind kP (kind_of vsp)
  have n2 : q2.mag = none := (mul_none e2).mpr (.inl nP)
  obtain ⟨q3, e3, h3⟩ := div_kind h1 h2 (by rw [n2]; simp)
  obtain ⟨c1, f1, g1, -⟩ := scale_spec 2 hA
  obtain ⟨c2, f2, g2, -⟩ := scale_spec Real.pi vk
  obtain ⟨c3, f3, g3, -⟩ := scale_spec 0.57735 vn
  obtain ⟨c4, f4, g4, -⟩ := sub_spec ve vk
  obtain ⟨c5, f5, g5⟩ := mul_spec g3 g4
  obtain ⟨c6, f6, g6⟩ := addNum_spec (1 / 2) (g5.cast (e := Dim.one) (by dims) rfl)
  obtain ⟨c7, f7, g7⟩ := mul_spec g2 g6
  have hden : Real.pi * (t.minorMaxInt / 10000 * 0.0254 : ℝ) * (1 / 2 + 0.57735 * (t.tpi / 0.0254 : ℝ) *
      (t.pitchMinExt / 10000 * 0.0254 - t.minorMaxInt / 10000 * 0.0254)) ≠ 0 := by
    have h1 := hs.gs
    have h2 := hs.kn
    have h3 := Real.pi_pos
    have : 1 / 2 + 0.57735 * (t.tpi / 0.0254 : ℝ) * (t.pitchMinExt / 10000 * 0.0254 - t.minorMaxInt / 10000 * 0.0254) =
        1 / 2 + 0.57735 * (t.tpi : ℝ) * (t.pitchMinExt / 10000 - t.minorMaxInt / 10000) := by field_simp
    rw [this]; positivity
  obtain ⟨c8, f8, g8⟩ := div_spec g1 g7 hden
  obtain ⟨c9, f9, g9⟩ := mul_kind (kind_of g8) h3
  have hm : Bolt.minEngagementN (ofQ qA) (ofQ ⟨t.minorMaxInt / 10000, PUnit.inch, reg.id⟩)
      (ofQ ⟨t.pitchMinExt / 10000, PUnit.inch, reg.id⟩) (ofQ ⟨t.tpi, PUnit.perInch, reg.id⟩) q3 = .ok c9 := by
    simp only [Bolt.minEngagementN, ofQ_scale, ofQ_sub, ofQ_mul, ofQ_addNum, ofQ_div, bind_map', f1, f2, f3, f4, f5, f6,
      f7, f8, f9, ok_bind]
  have x1 : checkedN (.quantity (ofQ qb)) "pressure" true = .ok (ofQ qb) := by
    have := ofQIn_checkArg (x := .quantity qb) (kind := "pressure")
    rw [Bolt.checkArg_ok lookup_pressure hb (by positivity)] at this; exact this
  have x2 : checkedN (.quantity (ofQ qp)) "pressure" true = .ok (ofQ qp) := by
    have := ofQIn_checkArg (x := .quantity qp) (kind := "pressure")
    rw [Bolt.checkArg_ok lookup_pressure hp (by positivity)] at this; exact this
  have x3 : checkedN (.quantity ⟨none, u, r⟩) "length" true = .ok ⟨none, u, r⟩ := by
    have : checkN ⟨none, u, r⟩ "length" true = .ok () := checkQ_ok lookup_length hu (by
      show (0 : ℝ) ≤ 0 * u.scale + u.offset
      rw [ho]; simp)
    simp only [checkedN, this, ok_bind]
  have hr : ∀ q, Bolt.reregN reg (ofQ q) = ofQ (Bolt.rereg reg q) := fun _ => rfl
  refine ⟨⟨qP, ofQ qA, c9, false⟩, ?_, nP, kP, rfl, qA, rfl, hA.cast rfl (Bolt.tensile_eq hs sb)⟩
  simp only [Bolt.stressAreasN, x1, x2, x3, ok_bind, hl.kn, hl.es, hl.en, hl.ds, hl.bd, hl.n, mk_some, hr,
    tensileArea_agrees, eA, map_ok', eS, hcmp, eP, e1, e2, e3, hm, Bool.false_eq_true, if_false]

/-- C85 is false of the code: with a NaN engagement length the reported bolt safety factor is that of a bolt engaged
deeply enough to be limited by its tensile area only (the plate factor is NaN). -/
theorem C85_bolt_safety_violated {t : Bolt.Thread} {xP xA xb xp : QIn} {P A sb sp n : ℝ} {u : PUnit} {r : ℕ}
    (ht : Bolt.Tabulated size cls t) (hP : DenotesM reg xP Dim.pressure P) (hA : DenotesM reg xA Dim.area A)
    (hb : DenotesM reg xb Dim.pressure (sb * psiPa)) (hp : DenotesM reg xp Dim.pressure (sp * psiPa))
    (P0 : 0 ≤ P) (hP1 : P ≠ 101325) (A0 : 0 < A) (sb0 : 0 ≤ sb) (sp0 : 0 < sp) (n0 : n ≠ 0)
    (hu : u.dim = Dim.length) (ho : u.offset = 0) :
    Bolt.safetyFactorsN reg (.ofQIn xP) (.ofQIn xA) (some n) size cls (.ofQIn xb) (.ofQIn xp)
        (.quantity ⟨none, u, r⟩) =
      .ok (some ((sb * psiPa) * (t.tensile sb * 0.0254 ^ 2) * n / ((P - 101325) * A)), none) := by
  obtain ⟨qP, eP, vP⟩ := parse_spec hP
  obtain ⟨qA, eA, vA⟩ := parse_spec hA
  obtain ⟨qb, eb, vb⟩ := parse_spec hb
  obtain ⟨qp, ep, vp⟩ := parse_spec hp
  have ps : 0 < psiPa := PUnit.psi.pos
  have hs := ht.sound
  obtain ⟨a, e, h1, h2, -, qs, h3, h4⟩ := C85_bolt_length_violated (reg := reg) (r := reg.id) ht ⟨_, vb⟩ ⟨_, vp⟩ sb0
    sp0 hu ho
  obtain ⟨c1, e1, v1, -⟩ := sub_spec vP
    ((lit_spec 1 PUnit.atm reg.id rfl).cast (w := 101325) rfl (by norm_num [PUnit.atm]))
  obtain ⟨c2, e2, v2⟩ := mul_spec v1 vA
  obtain ⟨c3, e3, v3, -⟩ := divNum_spec n0 v2
  have hd : (P - 101325) * A ≠ 0 := mul_ne_zero (sub_ne_zero.mpr hP1) A0.ne'
  have ht0 := hs.tensile_pos sb
  obtain ⟨c4, e4, v4⟩ := div_spec v3 (Bolt.rereg_val reg h4) (by positivity)
  obtain ⟨c5, e5, v5⟩ := div_spec vb v4 (by positivity)
  have e6 := toNumber_spec (v5.cast (e := Dim.one) (by dims) rfl)
  have kp : Kind (Bolt.reregN reg a.plate) Dim.area reg.id := ⟨h2.dim, h2.off, rfl⟩
  obtain ⟨c7, e7, v7⟩ := div_kind (kind_of v3) kp (by show a.plate.mag ≠ _; rw [h1]; simp)
  have n7 : c7.mag = none := (div_none e7).mpr (.inr h1)
  obtain ⟨c8, e8, v8⟩ := div_kind (kind_of vp) v7 (by rw [n7]; simp)
  have n8 : c8.mag = none := (div_none e8).mpr (.inr n7)
  have e9 := toNumber_kind (v8.cast (e := Dim.one) (by dims)) n8
  have x3 : checkN ⟨none, u, reg.id⟩ "length" true = .ok () := checkQ_ok lookup_length hu (by
    show (0 : ℝ) ≤ 0 * u.scale + u.offset
    rw [ho]; simp)
  have x4 : parseN (.quantity ⟨none, u, r⟩) reg = .ok ⟨none, u, reg.id⟩ := rfl
  have hr : ∀ q, Bolt.reregN reg (ofQ q) = ofQ (Bolt.rereg reg q) := fun _ => rfl
  simp only [Bolt.safetyFactorsN, ofQIn_parse, eP, eA, eb, ep, x4, map_ok', ok_bind, ofQ_check, check_pres vP P0 true,
    check_area vA A0.le true, check_pres vb (by positivity) true, check_pres vp (by positivity) true, x3, mk_some,
    ofQ_sub, ofQ_mul, ofQ_divNum, e1, e2, e3, e, h3, hr, ofQ_div, e4, e5, ofQ_toNumber, e6, e7, e8, e9]
  congr 3
  field_simp

/-- A 1/4-20 bolt of 80 ksi, a NaN length in inches: the conditions of the two theorems above hold. -/
example : Bolt.Tabulated "1/4-20" "2" Bolt.t1420 ∧ Bolt.IsPsi ⟨80000, PUnit.psi, 3⟩ 80000 ∧
    PUnit.inch.dim = Dim.length ∧ PUnit.inch.offset = 0 :=
  ⟨Bolt.t1420_tabulated, ⟨3, rfl, rfl, rfl, rfl⟩, rfl, rfl⟩

/-- C85: a NaN wave speed passes the checks and yields 4. -/
theorem C85_dlf_nan_velocity {qi qo qv qE qr : Quantity} {i o v E rho nu pm : ℝ} {r r' rv : ℕ} {u : PUnit}
    (h : Tube.DlfArgs qi qo qv qE qr i o v E rho nu r r') (hpm : 0 < pm ∧ pm < 1) (hu : u.dim = Dim.velocity)
    (ho : u.offset = 0) :
    Tube.dynamicLoadFactorN (.quantity (ofQ qi)) (.quantity (ofQ qo)) (.quantity ⟨none, u, rv⟩) (.quantity (ofQ qE))
      (.quantity (ofQ qr)) (some nu) (some pm) = .ok 4 := by
  obtain ⟨qc, ec, hc⟩ := Tube.critVelocity_eval h.hi h.ho h.hE h.hr h.s0.ne' h.rho0.ne' h.nu1
  obtain ⟨c1, e1, h1, -⟩ := scale_spec (1 + pm) hc
  obtain ⟨c2, e2, h2, u2⟩ := convert_spec (u := PUnit.meterPerSecond) h1 rfl rfl
  obtain ⟨c3, e3, h3, -⟩ := scale_spec (1 - pm) hc
  obtain ⟨c4, e4, h4, u4⟩ := convert_spec (u := PUnit.meterPerSecond) h3 rfl rfl
  have k : ∀ {q : Quantity} {kind : String} {pos : Bool} {q' : Quantity}, Tube.checked (.quantity q) kind pos = .ok q' →
      checkedN (.quantity (ofQ q)) kind pos = .ok (ofQ q') := by
    intro q kind pos q' hh
    have := @ofQIn_checked (.quantity q) kind pos
    rw [hh] at this; exact this
  have kv : checkedN (.quantity ⟨none, u, rv⟩) "velocity" false = .ok ⟨none, u, rv⟩ := by
    have : checkN ⟨none, u, rv⟩ "velocity" false = .ok () := checkQ_ok lookup_velocity hu (by
      show (0 : ℝ) ≤ 0 * u.scale + u.offset
      rw [ho]; simp)
    simp only [checkedN, this, ok_bind]
  have hcv : QN.convert ⟨none, u, rv⟩ PUnit.meterPerSecond = .ok ⟨none, PUnit.meterPerSecond, rv⟩ := by
    unfold QN.convert
    rw [if_pos (by rw [show (QN.unit ⟨none, u, rv⟩).dim = u.dim from rfl, hu]; rfl)]
    rfl
  simp only [Tube.dynamicLoadFactorN, k (Tube.checked_ok lookup_length h.hi (fun _ => h.i0)),
    k (Tube.checked_ok lookup_length h.ho (fun _ => h.o0)), kv,
    k (Tube.checked_ok lookup_pressure h.hE (fun _ => h.E0)), k (Tube.checked_ok lookup_density h.hr (fun _ => h.rho0.le)),
    ok_bind, crit_agrees, ec, map_ok', Flt.op1_some, ofQ_scale, ofQ_convert, e1, e2, e3, e4, hcv, Flt.lt_some,
    decide_eq_true_eq, if_neg (not_not.mpr hpm), Flt.lt_none_left, Flt.lt_none_right]
  simp

/-- A 4/4.5 inch steel tube meets the conditions of `C85_dlf_nan_velocity` (see the example beside C32), and a
velocity of NaN m/s is a NaN argument in the sense of `C85_dlf_nan_partial`. -/
example : NIn.IsNan (.quantity ⟨none, PUnit.meterPerSecond, 0⟩) ∧ PUnit.meterPerSecond.dim = Dim.velocity ∧
    PUnit.meterPerSecond.offset = 0 := ⟨rfl, rfl, rfl⟩

/-- C84: a NaN pressure in an otherwise valid call of `Window.safety_factor` gives NaN, no exception. -/
theorem C84_window_nan_pressure {xL xW xT xM : QIn} {L W T M : ℝ} {u : PUnit} {rp : ℕ}
    (hL : Denotes reg xL Dim.length L) (hW : Denotes reg xW Dim.length W) (hT : Denotes reg xT Dim.length T)
    (hM : Denotes reg xM Dim.pressure M) (L0 : 0 < L) (W0 : 0 < W) (T0 : 0 ≤ T) (M0 : 0 ≤ M)
    (hu : u.dim = Dim.pressure) :
    Window.safetyFactorN reg (.ofQIn xL) (.ofQIn xW) (.ofQIn xT) (.quantity ⟨none, u, rp⟩) (.ofQIn xM) = .ok none := by
  obtain ⟨q1, p1, c1, v1⟩ := base_parse lookup_length hL L0.le
  obtain ⟨q2, p2, c2, v2⟩ := base_parse lookup_length hW W0.le
  obtain ⟨q3, p3, c3, v3⟩ := base_parse lookup_length hT T0
  obtain ⟨q5, p5, c5, v5⟩ := base_parse lookup_pressure hM M0
  obtain ⟨d1, e1, h1⟩ := div_spec v1 v2 W0.ne'
  obtain ⟨d2, e2, h2⟩ := div_spec v3 v1 L0.ne'
  obtain ⟨d3, e3, h3⟩ := sq_spec h2
  obtain ⟨d4, e4, h4, -⟩ := scale_spec 2 v5
  obtain ⟨d5, e5, h5⟩ := sq_spec h1
  obtain ⟨d6, e6, h6⟩ := addNum_spec 1 (h5.cast (e := Dim.one) (by dims) rfl)
  obtain ⟨d7, e7, h7⟩ := mul_spec h4 h6
  obtain ⟨d8, e8, h8⟩ := mul_spec h3 h7
  have kp : Kind (QN.toBase ⟨none, u, reg.id⟩) Dim.pressure reg.id := ⟨hu, rfl, rfl⟩
  have np : (QN.toBase ⟨none, u, reg.id⟩).mag = none := rfl
  have x4 : parseN (.quantity ⟨none, u, rp⟩) reg = .ok ⟨none, u, reg.id⟩ := rfl
  have e9 : QN.scale (some 0.75) (QN.toBase ⟨none, u, reg.id⟩) = .ok (QN.toBase ⟨none, u, reg.id⟩) := by
    simp [QN.scale, QN.noOffset, QN.toBase, PUnit.base, QN.phys, ok_bind]
  obtain ⟨d10, e10, h10⟩ := div_kind (kind_of h8) kp (by rw [np]; simp)
  have n10 : d10.mag = none := (div_none e10).mpr (.inr np)
  have e11 := toNumber_kind (h10.cast (e := Dim.one) (by dims)) n10
  have cp : checkN (QN.toBase ⟨none, u, reg.id⟩) "pressure" true = .ok () :=
    checkQ_ok lookup_pressure hu (by show (0 : ℝ) ≤ 0 * 1 + 0; simp)
  simp only [Window.safetyFactorN, Window.safetyFactorFormulaN, ofQIn_parse, p1, p2, p3, p5, x4, map_ok', ok_bind,
    ofQ_toBase, ofQ_check, c1, c2, c3, c5, cp, ofQ_div, ofQ_pow, ofQ_scale, ofQ_addNum, ofQ_mul, e1, e2, e3, e4, e5, e6,
    e7, e8, e9, e10, e11]

end Swallow
end Pypbomb
