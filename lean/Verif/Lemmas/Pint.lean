/-
Evaluation lemmas: quantity arithmetic on well-dimensioned multiplicative quantities computes the
physical values, whatever the units.
-/
import Verif.Spec

namespace Pypbomb
open Quantity

/-- Closes goals between concrete dimension expressions. -/
macro "dims" : tactic => `(tactic| (apply Dim.ext <;>
  norm_num [Dim.div, Dim.mul, Dim.pow, Dim.one, Dim.length, Dim.area, Dim.volume, Dim.temperature,
    Dim.pressure, Dim.velocity, Dim.density, Dim.viscosity]))

variable {a b : Quantity} {d e : Dim} {v w : ℝ} {r : ℕ}

theorem HasVal.phys (h : HasVal a d v r) : a.phys = v := by
  simp [Quantity.phys, h.off, h.val]

theorem HasVal.mag_eq (h : HasVal a d v r) : a.mag = v / a.unit.scale := by
  rw [← h.val]; field_simp [a.unit.pos.ne']

theorem HasVal.mag_zero_iff (h : HasVal a d v r) : a.mag = 0 ↔ v = 0 := by
  rw [← h.val]; simp [a.unit.pos.ne']

theorem HasVal.mag_neg_iff (h : HasVal a d v r) : a.mag < 0 ↔ v < 0 := by
  rw [← h.val]
  constructor
  · intro hm; exact mul_neg_of_neg_of_pos hm a.unit.pos
  · intro hv; by_contra hc
    exact absurd hv (not_lt.mpr (mul_nonneg (not_lt.mp hc) a.unit.pos.le))

theorem HasVal.cast (h : HasVal a d v r) (hd : d = e) (hv : v = w) : HasVal a e w r := by
  subst hd; subst hv; exact h

theorem mul_spec (ha : HasVal a d v r) (hb : HasVal b e w r) :
    ∃ c, a.mul b = .ok c ∧ HasVal c (d.mul e) (v * w) r := by
  refine ⟨⟨a.mag * b.mag, a.unit.mul b.unit, a.reg⟩, ?_, ?_, ?_, ?_, ?_⟩
  · simp [Quantity.mul, sameReg, noOffset, ha.reg, hb.reg, ha.off, hb.off]
  · simp [PUnit.mul, ha.dim, hb.dim]
  · simp [PUnit.mul]
  · simp only [PUnit.mul, ← ha.val, ← hb.val]; ring
  · exact ha.reg

theorem div_spec (ha : HasVal a d v r) (hb : HasVal b e w r) (hw : w ≠ 0) :
    ∃ c, a.div b = .ok c ∧ HasVal c (d.div e) (v / w) r := by
  have hm : b.mag ≠ 0 := fun h => hw (hb.mag_zero_iff.mp h)
  refine ⟨⟨a.mag / b.mag, a.unit.div b.unit, a.reg⟩, ?_, ?_, ?_, ?_, ?_⟩
  · simp [Quantity.div, sameReg, noOffset, ha.reg, hb.reg, ha.off, hb.off, hm]
  · simp [PUnit.div, ha.dim, hb.dim]
  · simp [PUnit.div]
  · have := b.unit.pos.ne'
    simp only [PUnit.div, ← ha.val, ← hb.val]; field_simp
  · exact ha.reg

theorem div_zero_spec (ha : HasVal a d v r) (hb : HasVal b e 0 r) :
    a.div b = .error .zeroDivision := by
  have hm : b.mag = 0 := hb.mag_zero_iff.mpr rfl
  simp [Quantity.div, sameReg, noOffset, ha.reg, hb.reg, ha.off, hb.off, hm]

theorem add_spec (ha : HasVal a d v r) (hb : HasVal b d w r) :
    ∃ c, a.add b = .ok c ∧ HasVal c d (v + w) r ∧ c.unit = a.unit := by
  refine ⟨⟨a.mag + b.mag * b.unit.scale / a.unit.scale, a.unit, a.reg⟩, ?_, ⟨?_, ?_, ?_, ?_⟩, rfl⟩
  · simp [Quantity.add, sameReg, noOffset, ha.reg, hb.reg, ha.off, hb.off, ha.dim, hb.dim]
  · exact ha.dim
  · exact ha.off
  · have := a.unit.pos.ne'
    simp only [← ha.val, ← hb.val]; field_simp
  · exact ha.reg

theorem sub_spec (ha : HasVal a d v r) (hb : HasVal b d w r) :
    ∃ c, a.sub b = .ok c ∧ HasVal c d (v - w) r ∧ c.unit = a.unit := by
  refine ⟨⟨a.mag - b.mag * b.unit.scale / a.unit.scale, a.unit, a.reg⟩, ?_, ⟨?_, ?_, ?_, ?_⟩, rfl⟩
  · simp [Quantity.sub, sameReg, noOffset, ha.reg, hb.reg, ha.off, hb.off, ha.dim, hb.dim]
  · exact ha.dim
  · exact ha.off
  · have := a.unit.pos.ne'
    simp only [← ha.val, ← hb.val]; field_simp
  · exact ha.reg

theorem scale_spec (k : ℝ) (ha : HasVal a d v r) :
    ∃ c, Quantity.scale k a = .ok c ∧ HasVal c d (k * v) r ∧ c.unit = a.unit := by
  refine ⟨⟨k * a.mag, a.unit, a.reg⟩, ?_, ⟨ha.dim, ha.off, ?_, ha.reg⟩, rfl⟩
  · simp [Quantity.scale, noOffset, ha.off]
  · simp only [← ha.val]; ring

theorem divNum_spec {k : ℝ} (hk : k ≠ 0) (ha : HasVal a d v r) :
    ∃ c, a.divNum k = .ok c ∧ HasVal c d (v / k) r ∧ c.unit = a.unit := by
  refine ⟨⟨a.mag / k, a.unit, a.reg⟩, ?_, ⟨ha.dim, ha.off, ?_, ha.reg⟩, rfl⟩
  · simp [Quantity.divNum, noOffset, ha.off, hk]
  · simp only [← ha.val]; ring

theorem rdiv_spec (k : ℝ) (ha : HasVal a d v r) (hv : v ≠ 0) :
    ∃ c, Quantity.rdiv k a = .ok c ∧ HasVal c (Dim.one.div d) (k / v) r := by
  have hm : a.mag ≠ 0 := fun h => hv (ha.mag_zero_iff.mp h)
  refine ⟨⟨k / a.mag, PUnit.dimensionless.div a.unit, a.reg⟩, ?_, ?_, ?_, ?_, ha.reg⟩
  · simp [Quantity.rdiv, noOffset, ha.off, hm]
  · simp [PUnit.div, PUnit.dimensionless, PUnit.base, ha.dim]
  · simp [PUnit.div]
  · have := a.unit.pos.ne'
    simp only [PUnit.div, PUnit.dimensionless, PUnit.base, ← ha.val]; field_simp

theorem addNum_spec (k : ℝ) (ha : HasVal a Dim.one v r) :
    ∃ c, Quantity.addNum k a = .ok c ∧ HasVal c Dim.one (k + v) r := by
  refine ⟨⟨k + a.phys, PUnit.dimensionless, a.reg⟩, ?_, rfl, rfl, ?_, ha.reg⟩
  · simp [Quantity.addNum, ha.dim]
  · simp [PUnit.dimensionless, PUnit.base, ha.phys]

theorem pow_spec (p : ℚ) (ha : HasVal a d v r) (hv : 0 < v) :
    ∃ c, a.pow p = .ok c ∧ HasVal c (d.pow p) (v ^ (p : ℝ)) r := by
  have h1 : ¬ a.mag < 0 := fun h => absurd (ha.mag_neg_iff.mp h) (not_lt.mpr hv.le)
  have h2 : a.mag ≠ 0 := fun h => hv.ne' (ha.mag_zero_iff.mp h)
  refine ⟨⟨a.mag ^ (p : ℝ), a.unit.pow p, a.reg⟩, ?_, ?_, rfl, ?_, ha.reg⟩
  · simp [Quantity.pow, noOffset, ha.off, h1, h2]
  · simp [PUnit.pow, ha.dim]
  · simp only [PUnit.pow, ← ha.val]
    rw [Real.mul_rpow (not_lt.mp h1) a.unit.pos.le]

/-- Squares need no sign condition. -/
theorem sq_spec (ha : HasVal a d v r) :
    ∃ c, a.pow 2 = .ok c ∧ HasVal c (d.pow 2) (v ^ 2) r := by
  refine ⟨⟨a.mag ^ ((2 : ℚ) : ℝ), a.unit.pow 2, a.reg⟩, ?_, ?_, rfl, ?_, ha.reg⟩
  · have h3 : ¬ ((2 : ℚ) < 0) := by norm_num
    simp [Quantity.pow, noOffset, ha.off, h3]
  · simp [PUnit.pow, ha.dim]
  · have e1 : ((2 : ℚ) : ℝ) = ((2 : ℕ) : ℝ) := by norm_num
    simp only [PUnit.pow, ← ha.val, e1, Real.rpow_natCast]; ring

/-- Square roots allow zero. -/
theorem sqrt_spec (ha : HasVal a d v r) (hv : 0 ≤ v) :
    ∃ c, a.pow (1 / 2) = .ok c ∧ HasVal c (d.pow (1 / 2)) (Real.sqrt v) r := by
  have h1 : ¬ a.mag < 0 := fun h => absurd (ha.mag_neg_iff.mp h) (not_lt.mpr hv)
  have h3 : ¬ ((1 / 2 : ℚ) < 0) := by norm_num
  refine ⟨⟨a.mag ^ (((1 / 2 : ℚ)) : ℝ), a.unit.pow (1 / 2), a.reg⟩, ?_, ?_, rfl, ?_, ha.reg⟩
  · have h4 : ¬ (a.mag = 0 ∧ (1 / 2 : ℚ) < 0) := fun h => h3 h.2
    have h5 : ¬ (a.mag < 0 ∧ (1 / 2 : ℚ).den ≠ 1) := fun h => h1 h.1
    simp only [Quantity.pow, noOffset, ha.off, if_true, ok_bind, if_neg h4, if_neg h5]
  · simp [PUnit.pow, ha.dim]
  · simp only [PUnit.pow, ← ha.val]
    rw [Real.sqrt_eq_rpow, Real.mul_rpow (not_lt.mp h1) a.unit.pos.le]
    norm_num

theorem log_spec (ha : HasVal a Dim.one v r) (hv : 0 < v) : a.log = .ok (Real.log v) := by
  simp [Quantity.log, ha.dim, ha.phys, hv]

theorem lt_spec (ha : HasVal a d v r) (hb : HasVal b d w r) :
    a.lt b = .ok (decide (v < w)) := by
  simp [Quantity.lt, sameReg, ha.reg, hb.reg, ha.dim, hb.dim, ha.phys, hb.phys]

theorem ge_spec (ha : HasVal a d v r) (hb : HasVal b d w r) :
    a.ge b = .ok (decide (w ≤ v)) := by
  simp [Quantity.ge, sameReg, ha.reg, hb.reg, ha.dim, hb.dim, ha.phys, hb.phys]

theorem toNumber_spec (ha : HasVal a Dim.one v r) : a.toNumber = .ok v := by
  simp [Quantity.toNumber, convert, PUnit.dimensionless, PUnit.base, ha.dim, ha.phys]

theorem convert_spec {u : PUnit} (ha : HasVal a d v r) (hd : u.dim = d) (hu : u.offset = 0) :
    ∃ c, a.convert u = .ok c ∧ HasVal c d v r ∧ c.unit = u := by
  refine ⟨⟨(a.phys - u.offset) / u.scale, u, a.reg⟩, ?_, ⟨hd, hu, ?_, ha.reg⟩, rfl⟩
  · simp [convert, ha.dim, hd]
  · have := u.pos.ne'
    simp only [hu, ha.phys, sub_zero]; field_simp

theorem toBase_spec (ha : HasVal a d v r) :
    HasVal a.toBase d v r ∧ a.toBase.unit = PUnit.base d := by
  refine ⟨⟨?_, rfl, ?_, ha.reg⟩, ?_⟩
  · simp [toBase, PUnit.base, ha.dim]
  · simp [toBase, PUnit.base, ha.phys]
  · simp [toBase, ha.dim]

/-- A quantity literal `quant(m, u)`. -/
theorem lit_spec (m : ℝ) (u : PUnit) (r : ℕ) (hu : u.offset = 0) :
    HasVal ⟨m, u, r⟩ u.dim (m * u.scale) r := ⟨rfl, hu, rfl, rfl⟩

/-- Parsing an input that denotes a multiplicative quantity. -/
theorem parse_spec {reg : Registry} {x : QIn} (h : DenotesM reg x d v) :
    ∃ q, parseQ x reg = .ok q ∧ HasVal q d v reg.id := by
  cases x with
  | quantity q =>
    obtain ⟨⟨h1, h2⟩, h3⟩ := h
    refine ⟨⟨q.mag, q.unit, reg.id⟩, rfl, h1, h3, ?_, rfl⟩
    simpa [h3] using h2
  | pair m s =>
    obtain ⟨⟨u, h1, h2, h3⟩, h4⟩ := h
    have ho := h4 u h1
    refine ⟨⟨m, u, reg.id⟩, by simp [parseQ, h1], h2, ho, ?_, rfl⟩
    simpa [ho] using h3
  | other => exact h.1.elim

/-- Parsing an input that denotes any quantity (offset units included). -/
theorem parse_any {reg : Registry} {x : QIn} (h : Denotes reg x d v) :
    ∃ q, parseQ x reg = .ok q ∧ q.unit.dim = d ∧ q.phys = v ∧ q.reg = reg.id := by
  cases x with
  | quantity q => exact ⟨⟨q.mag, q.unit, reg.id⟩, rfl, h.1, h.2, rfl⟩
  | pair m s =>
    obtain ⟨u, h1, h2, h3⟩ := h
    exact ⟨⟨m, u, reg.id⟩, by simp [parseQ, h1], h2, h3, rfl⟩
  | other => exact h.elim

/-- Every successful parse comes from an input that denotes something. -/
theorem denotes_of_parse {reg : Registry} {x : QIn} {q : Quantity} (h : parseQ x reg = .ok q) :
    Denotes reg x q.unit.dim q.phys ∧ q.reg = reg.id := by
  cases x with
  | quantity q' =>
    simp only [parseQ, Except.ok.injEq] at h
    subst h; exact ⟨⟨rfl, rfl⟩, rfl⟩
  | pair m s =>
    simp only [parseQ] at h
    cases hu : reg.parse s with
    | none => simp [hu] at h
    | some u =>
      simp only [hu, Except.ok.injEq] at h
      subst h; exact ⟨⟨u, hu, rfl, rfl⟩, rfl⟩
  | other => simp [parseQ] at h

/-- `check_pint_quantity` on a scalar quantity, decided by dimension and physical value. -/
theorem checkQ_eq (q : Quantity) (kind : String) (pos : Bool) {dk : Dim}
    (hk : supportedDims.lookup kind = some dk) :
    checkQ q kind pos =
      if pos = true ∧ q.phys < 0 then .error (.valueError "Input value < 0")
      else if q.unit.dim = dk then .ok () else .error (.valueError (dimMessage q.unit.dim dk)) := by
  have e : checkQ q kind pos = ((if pos = true ∧ q.phys < 0 then
      Except.error (PyErr.valueError "Input value < 0")
      else if q.unit.dim = dk then Except.ok true
      else Except.error (PyErr.valueError (dimMessage q.unit.dim dk)) : Py Bool) >>= fun _ => .ok ()) := by
    simp only [checkQ, checkPintQuantity, Quantity.toObj, hk, ok_bind]
    rfl
  rw [e]
  by_cases h : pos = true ∧ q.phys < 0
  · rw [if_pos h, if_pos h]; rfl
  · rw [if_neg h, if_neg h]
    by_cases h2 : q.unit.dim = dk
    · rw [if_pos h2, if_pos h2]; rfl
    · rw [if_neg h2, if_neg h2]; rfl

theorem checkQ_ok {q : Quantity} {kind : String} {pos : Bool} {dk : Dim}
    (hk : supportedDims.lookup kind = some dk) (hd : q.unit.dim = dk) (hp : 0 ≤ q.phys) :
    checkQ q kind pos = .ok () := by
  rw [checkQ_eq q kind pos hk, if_neg (fun h => absurd h.2 (not_lt.mpr hp)), if_pos hd]

theorem lookup_length : supportedDims.lookup "length" = some Dim.length := by decide
theorem lookup_area : supportedDims.lookup "area" = some Dim.area := by decide
theorem lookup_temperature : supportedDims.lookup "temperature" = some Dim.temperature := by decide
theorem lookup_pressure : supportedDims.lookup "pressure" = some Dim.pressure := by decide
theorem lookup_velocity : supportedDims.lookup "velocity" = some Dim.velocity := by decide
theorem lookup_density : supportedDims.lookup "density" = some Dim.density := by decide

theorem check_len (h : HasVal a Dim.length v r) (hv : 0 ≤ v) (p : Bool) :
    checkQ a "length" p = .ok () := checkQ_ok lookup_length h.dim (by rw [h.phys]; exact hv)
theorem check_pres (h : HasVal a Dim.pressure v r) (hv : 0 ≤ v) (p : Bool) :
    checkQ a "pressure" p = .ok () := checkQ_ok lookup_pressure h.dim (by rw [h.phys]; exact hv)
theorem check_area (h : HasVal a Dim.area v r) (hv : 0 ≤ v) (p : Bool) :
    checkQ a "area" p = .ok () := checkQ_ok lookup_area h.dim (by rw [h.phys]; exact hv)
theorem check_dens (h : HasVal a Dim.density v r) (hv : 0 ≤ v) (p : Bool) :
    checkQ a "density" p = .ok () := checkQ_ok lookup_density h.dim (by rw [h.phys]; exact hv)

end Pypbomb

namespace Pypbomb
open Quantity

theorem toBase_hasVal (q : Quantity) : HasVal q.toBase q.unit.dim q.phys q.reg :=
  ⟨rfl, rfl, by simp [toBase, PUnit.base], rfl⟩

theorem checkQ_ok_iff {q : Quantity} {kind : String} {pos : Bool} {dk : Dim}
    (hk : supportedDims.lookup kind = some dk) :
    checkQ q kind pos = .ok () ↔ q.unit.dim = dk ∧ (pos = true → 0 ≤ q.phys) := by
  rw [checkQ_eq q kind pos hk]
  by_cases h : pos = true ∧ q.phys < 0
  · simp only [if_pos h]
    constructor
    · intro h'; cases h'
    · rintro ⟨_, h2⟩; exact absurd h.2 (not_lt.mpr (h2 h.1))
  · rw [if_neg h]
    by_cases h2 : q.unit.dim = dk
    · rw [if_pos h2]
      simp only [h2, true_and, true_iff]
      intro hp; by_contra hc; exact h ⟨hp, not_le.mp hc⟩
    · rw [if_neg h2]
      constructor
      · intro h'; cases h'
      · intro h'; exact absurd h'.1 h2

/-- What a successful parse, conversion to base units and check of an argument tells. -/
theorem base_checked {reg : Registry} {x : QIn} {q : Quantity} {kind : String} {dk : Dim}
    (hk : supportedDims.lookup kind = some dk)
    (hp : parseQ x reg = .ok q) (hc : checkQ q.toBase kind true = .ok ()) :
    ∃ v, Denotes reg x dk v ∧ 0 ≤ v ∧ HasVal q.toBase dk v reg.id := by
  have hb := toBase_hasVal q
  obtain ⟨h1, h2⟩ := (checkQ_ok_iff hk).mp hc
  obtain ⟨h3, h4⟩ := denotes_of_parse hp
  have hd : q.unit.dim = dk := by rw [← hb.dim]; exact h1
  refine ⟨q.phys, hd ▸ h3, ?_, ?_⟩
  · have := h2 rfl; rwa [hb.phys] at this
  · rw [← h4]; exact hd ▸ hb

/-- As `base_checked`, without the conversion to base units. -/
theorem parsed_checked {reg : Registry} {x : QIn} {q : Quantity} {kind : String} {dk : Dim}
    (hk : supportedDims.lookup kind = some dk)
    (hp : parseQ x reg = .ok q) (hc : checkQ q kind true = .ok ()) :
    Denotes reg x dk q.phys ∧ 0 ≤ q.phys ∧ q.unit.dim = dk ∧ q.reg = reg.id := by
  obtain ⟨h1, h2⟩ := (checkQ_ok_iff hk).mp hc
  obtain ⟨h3, h4⟩ := denotes_of_parse hp
  exact ⟨h1 ▸ h3, h2 rfl, h1, h4⟩

/-- The physical value an argument denotes is unique. -/
theorem Denotes.unique {reg : Registry} {x : QIn} {d e : Dim} {v w : ℝ}
    (h1 : Denotes reg x d v) (h2 : Denotes reg x e w) : d = e ∧ v = w := by
  cases x with
  | quantity q => exact ⟨h1.1.symm.trans h2.1, h1.2.symm.trans h2.2⟩
  | pair m s =>
    obtain ⟨u, a1, a2, a3⟩ := h1
    obtain ⟨u', b1, b2, b3⟩ := h2
    rw [a1] at b1; cases b1
    exact ⟨a2.symm.trans b2, a3.symm.trans b3⟩
  | other => exact h1.elim

theorem HasVal.denotes {q : Quantity} {d : Dim} {v : ℝ} {r : ℕ} {reg : Registry}
    (h : HasVal q d v r) : Denotes reg (.quantity q) d v :=
  ⟨h.dim, by rw [h.off, add_zero]; exact h.val⟩

theorem HasVal.denotesM {q : Quantity} {d : Dim} {v : ℝ} {r : ℕ} {reg : Registry}
    (h : HasVal q d v r) : DenotesM reg (.quantity q) d v := ⟨h.denotes, h.off⟩

/-- Parse, convert to base units and check an argument that denotes a non-negative quantity. -/
theorem base_parse {reg : Registry} {x : QIn} {kind : String} {dk : Dim} {v : ℝ}
    (hk : supportedDims.lookup kind = some dk) (h : Denotes reg x dk v) (hv : 0 ≤ v) :
    ∃ q, parseQ x reg = .ok q ∧ checkQ q.toBase kind true = .ok () ∧
      HasVal q.toBase dk v reg.id := by
  obtain ⟨q, h1, h2, h3, h4⟩ := parse_any h
  have hb := toBase_hasVal q
  rw [h2, h3, h4] at hb
  exact ⟨q, h1, checkQ_ok hk hb.dim (by rw [hb.phys]; exact hv), hb⟩

/-- As `parse_spec`, with the unit. -/
theorem parse_unit {reg : Registry} {x : QIn} {d : Dim} {v : ℝ} {u : PUnit}
    (h : DenotesM reg x d v) (hu : UnitOf reg x u) :
    ∃ q, parseQ x reg = .ok q ∧ HasVal q d v reg.id ∧ q.unit = u := by
  obtain ⟨q, e, hv⟩ := parse_spec h
  refine ⟨q, e, hv, ?_⟩
  cases x with
  | quantity q' => simp only [parseQ, Except.ok.injEq] at e; subst e; exact hu
  | pair m s =>
    have hu' : reg.parse s = some u := hu
    simp only [parseQ, hu', Except.ok.injEq] at e
    subst e; rfl
  | other => exact hu.elim

theorem parse_quantity {reg : Registry} {q : Quantity} (h : q.reg = reg.id) :
    parseQ (.quantity q) reg = .ok q := by
  simp only [parseQ, ← h]

theorem convert_any {q : Quantity} {u : PUnit} (h : q.unit.dim = u.dim) :
    q.convert u = .ok ⟨(q.phys - u.offset) / u.scale, u, q.reg⟩ := by
  simp only [convert, if_pos h]

end Pypbomb
