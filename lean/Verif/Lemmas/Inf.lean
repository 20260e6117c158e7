/-
Extended floats: on numbers every operation is the operation of `Model/Pint.lean`; with infinities quantity
arithmetic computes the extended value, whatever the units.
-/
import Verif.Model.Inf
import Verif.Lemmas.Nan
import Verif.Lemmas.Pint

namespace Pypbomb

namespace Xf
variable {x y s o : ℝ} {a : Xf}

@[simp] theorem fin_inj : (fin x = fin y) ↔ x = y := ⟨fun h => by cases h; rfl, fun h => by rw [h]⟩
@[simp] theorem mul_fin : (fin x).mul (fin y) = fin (x * y) := rfl
@[simp] theorem div_fin : (fin x).div (fin y) = fin (x / y) := rfl
@[simp] theorem add_fin : (fin x).add (fin y) = fin (x + y) := rfl
@[simp] theorem neg_fin : (fin x).neg = fin (-x) := rfl
@[simp] theorem sub_fin : (fin x).sub (fin y) = fin (x - y) := by simp [sub, sub_eq_add_neg]
@[simp] theorem lt_fin : lt (fin x) (fin y) = decide (x < y) := rfl
@[simp] theorem le_fin : le (fin x) (fin y) = decide (x ≤ y) := rfl
@[simp] theorem affine_fin : affine s o (fin x) = fin (x * s + o) := rfl
@[simp] theorem sqrt_fin : sqrt (fin x) = fin (Real.sqrt x) := rfl
@[simp] theorem affine_pinf : affine s o pinf = pinf := rfl
@[simp] theorem affine_ninf : affine s o ninf = ninf := rfl
@[simp] theorem affine_nan : affine s o nan = nan := rfl
@[simp] theorem sqrt_pinf : sqrt pinf = pinf := rfl
@[simp] theorem infinity_pos : infinity 1 = pinf := rfl
@[simp] theorem infinity_neg : infinity (-1) = ninf := rfl
@[simp] theorem infinity_zero : infinity 0 = nan := rfl
@[simp] theorem nan_mul : nan.mul a = nan := by cases a <;> simp [mul, sign]
@[simp] theorem mul_nan : a.mul nan = nan := by cases a <;> simp [mul, sign]
@[simp] theorem pinf_pinf : pinf.mul pinf = pinf := by simp [mul, sign]
@[simp] theorem ninf_ninf : ninf.mul ninf = pinf := by simp [mul, sign]
@[simp] theorem pinf_ninf : pinf.mul ninf = ninf := by simp [mul, sign]
@[simp] theorem ninf_pinf : ninf.mul pinf = ninf := by simp [mul, sign]
theorem pinf_mul (h : 0 < x) : pinf.mul (fin x) = pinf := by simp [mul, sign, sign_pos h]
theorem mul_pinf (h : 0 < x) : (fin x).mul pinf = pinf := by simp [mul, sign, sign_pos h]
theorem ninf_mul (h : 0 < x) : ninf.mul (fin x) = ninf := by simp [mul, sign, sign_pos h]
theorem mul_ninf (h : 0 < x) : (fin x).mul ninf = ninf := by simp [mul, sign, sign_pos h]
theorem mul_pinf_neg (h : x < 0) : (fin x).mul pinf = ninf := by simp [mul, sign, sign_neg h]
@[simp] theorem zero_mul_pinf : (fin 0).mul pinf = nan := by simp [mul, sign]
@[simp] theorem pinf_mul_zero : pinf.mul (fin 0) = nan := by simp [mul, sign]
@[simp] theorem zero_mul_ninf : (fin 0).mul ninf = nan := by simp [mul, sign]
@[simp] theorem ninf_mul_zero : ninf.mul (fin 0) = nan := by simp [mul, sign]
@[simp] theorem div_pinf : (fin x).div pinf = fin 0 := rfl
@[simp] theorem div_ninf : (fin x).div ninf = fin 0 := rfl
@[simp] theorem nan_div : nan.div a = nan := by cases a <;> rfl
@[simp] theorem div_nan : a.div nan = nan := by cases a <;> rfl
@[simp] theorem pinf_div_pinf : pinf.div pinf = nan := rfl
@[simp] theorem ninf_div_pinf : ninf.div pinf = nan := rfl
@[simp] theorem pinf_div_ninf : pinf.div ninf = nan := rfl
theorem pinf_div (h : 0 < x) : pinf.div (fin x) = pinf := by simp [div, sign_pos h]
theorem pinf_div_neg (h : x < 0) : pinf.div (fin x) = ninf := by simp [div, sign_neg h]
theorem ninf_div (h : 0 < x) : ninf.div (fin x) = ninf := by simp [div, sign_pos h]
@[simp] theorem nan_add : nan.add a = nan := by cases a <;> rfl
@[simp] theorem add_nan : a.add nan = nan := by cases a <;> rfl
@[simp] theorem add_pinf : (fin x).add pinf = pinf := rfl
@[simp] theorem pinf_add : pinf.add (fin x) = pinf := rfl
@[simp] theorem add_ninf : (fin x).add ninf = ninf := rfl
@[simp] theorem pinf_sub : pinf.sub (fin x) = pinf := rfl
@[simp] theorem sub_pinf : (fin x).sub pinf = ninf := rfl

end Xf

namespace QX
variable {a b c : QX} {q q' : Quantity} {k : Xf} {x : ℝ} {p : ℚ} {u : PUnit}

/-! ### On numbers -/

@[simp] theorem ofQ_mag : (ofQ q).mag = .fin q.mag := rfl
@[simp] theorem ofQ_unit : (ofQ q).unit = q.unit := rfl
@[simp] theorem ofQ_reg : (ofQ q).reg = q.reg := rfl
theorem mk_fin (m : ℝ) (u : PUnit) (r : ℕ) : (⟨.fin m, u, r⟩ : QX) = ofQ ⟨m, u, r⟩ := rfl
@[simp] theorem ofQ_phys : (ofQ q).phys = .fin q.phys := rfl
theorem ofQ_toBase : (ofQ q).toBase = ofQ q.toBase := rfl

theorem ofQ_convert : (ofQ q).convert u = (q.convert u).map ofQ := by
  unfold convert Quantity.convert; simp only [ofQ_unit, map_ite']; rfl
theorem ofQ_sameReg : sameReg (ofQ q) (ofQ q') = Quantity.sameReg q q' := rfl
theorem ofQ_noOffset : noOffset (ofQ q) = Quantity.noOffset q := rfl
theorem ofQ_mul : (ofQ q).mul (ofQ q') = (q.mul q').map ofQ := by
  unfold mul Quantity.mul; simp only [ofQ_sameReg, ofQ_noOffset, map_bind']; rfl
theorem ofQ_div : (ofQ q).div (ofQ q') = (q.div q').map ofQ := by
  unfold div Quantity.div
  simp only [ofQ_sameReg, ofQ_noOffset, map_bind', map_ite', ofQ_mag, Xf.fin_inj]; rfl
theorem ofQ_add : (ofQ q).add (ofQ q') = (q.add q').map ofQ := by
  unfold add Quantity.add
  simp only [ofQ_sameReg, ofQ_noOffset, map_bind', map_ite', ofQ_unit, map_ok', map_err', ofQ_mag, Xf.affine_fin,
    Xf.add_fin, ofQ_reg, add_zero, mul_one_div]; rfl
theorem ofQ_sub : (ofQ q).sub (ofQ q') = (q.sub q').map ofQ := by
  unfold sub Quantity.sub
  simp only [ofQ_sameReg, ofQ_noOffset, map_bind', map_ite', ofQ_unit, map_ok', map_err', ofQ_mag, Xf.affine_fin,
    Xf.sub_fin, ofQ_reg, add_zero, mul_one_div]; rfl
theorem ofQ_scale : scale (.fin x) (ofQ q) = (Quantity.scale x q).map ofQ := by
  unfold scale Quantity.scale; simp only [ofQ_noOffset, map_bind']; rfl
theorem ofQ_divNum : (ofQ q).divNum (.fin x) = (q.divNum x).map ofQ := by
  unfold divNum Quantity.divNum
  simp only [ofQ_noOffset, map_bind', map_ite', Xf.fin_inj]; rfl
theorem ofQ_rdiv : rdiv (.fin x) (ofQ q) = (Quantity.rdiv x q).map ofQ := by
  unfold rdiv Quantity.rdiv
  simp only [ofQ_noOffset, map_bind', map_ite', ofQ_mag, Xf.fin_inj]; rfl
theorem ofQ_addNum : addNum (.fin x) (ofQ q) = (Quantity.addNum x q).map ofQ := by
  unfold addNum Quantity.addNum; simp only [map_ite', ofQ_unit]; rfl
theorem ofQ_pow : (ofQ q).pow p = (q.pow p).map ofQ := by
  unfold pow Quantity.pow
  simp only [ofQ_noOffset, map_bind', map_ite', ofQ_mag]; rfl
theorem ofQ_lt : (ofQ q).lt (ofQ q') = q.lt q' := by
  unfold lt Quantity.lt; simp only [ofQ_sameReg, ofQ_unit, ofQ_phys, Xf.lt_fin]; congr!
theorem ofQ_ge : (ofQ q).ge (ofQ q') = q.ge q' := by
  unfold ge Quantity.ge; simp only [ofQ_sameReg, ofQ_unit, ofQ_phys, Xf.le_fin]; congr!
theorem ofQ_toNumber : (ofQ q).toNumber = q.toNumber.map .fin := by
  unfold toNumber Quantity.toNumber; simp only [ofQ_convert, bind_map', map_bind']; rfl

end QX

section
variable {reg : Registry} {x : QIn} {kind : String} {pos : Bool}

theorem ofQIn_parseX : parseX (XIn.ofQIn x) reg = (parseQ x reg).map QX.ofQ := by
  cases x with
  | quantity q => rfl
  | pair m u => unfold parseX parseQ XIn.ofQIn; dsimp; cases reg.parse u <;> rfl
  | other => rfl

theorem ofQ_checkX (q : Quantity) : checkX (QX.ofQ q) kind pos = checkQ q kind pos := rfl

theorem ofQIn_checkedX : checkedX (XIn.ofQIn x) kind pos = (Tube.checked x kind pos).map QX.ofQ := by
  cases x with
  | quantity q => unfold checkedX Tube.checked XIn.ofQIn; simp only [ofQ_checkX, map_bind']; rfl
  | pair m u => rfl
  | other => rfl

theorem ofQIn_checkArgX : checkedX (XIn.ofQIn x) kind true = (Bolt.checkArg x kind).map QX.ofQ := by
  cases x with
  | quantity q => unfold checkedX Bolt.checkArg XIn.ofQIn; simp only [ofQ_checkX, map_bind']; rfl
  | pair m u => rfl
  | other => rfl

end

/-! ### Evaluation with extended values -/

/-- As `HasVal`, with an extended value: in SI base units the quantity is `v`. -/
structure HasX (q : QX) (d : Dim) (v : Xf) (r : ℕ) : Prop where
  dim : q.unit.dim = d
  off : q.unit.offset = 0
  val : q.mag.affine q.unit.scale 0 = v
  reg : q.reg = r

namespace HasX
variable {a b : QX} {d e : Dim} {v w k : Xf} {r : ℕ}

theorem cast (h : HasX a d v r) (hd : d = e) (hv : v = w) : HasX a e w r := by
  subst hd; subst hv; exact h

theorem phys (h : HasX a d v r) : a.phys = v := by rw [QX.phys, h.off, h.val]

theorem mag_zero (h : HasX a d v r) : a.mag = .fin 0 ↔ v = .fin 0 := by
  rw [← h.val]
  cases a.mag <;> simp [a.unit.pos.ne']

theorem ofQ {q : Quantity} {x : ℝ} (h : HasVal q d x r) : HasX (QX.ofQ q) d (.fin x) r :=
  ⟨h.dim, h.off, by simp [← h.val], h.reg⟩

theorem mul (ha : HasX a d v r) (hb : HasX b e w r) : ∃ c, a.mul b = .ok c ∧ HasX c (d.mul e) (v.mul w) r := by
  refine ⟨⟨a.mag.mul b.mag, a.unit.mul b.unit, a.reg⟩, ?_, ?_, rfl, ?_, ha.reg⟩
  · simp [QX.mul, QX.sameReg, QX.noOffset, ha.reg, hb.reg, ha.off, hb.off]
  · simp [PUnit.mul, ha.dim, hb.dim]
  · rw [← ha.val, ← hb.val]
    have hs := a.unit.pos
    have ht := b.unit.pos
    have e1 : ∀ x : ℝ, SignType.sign (x * a.unit.scale) = SignType.sign x := fun x => by
      rw [sign_mul, sign_pos hs, mul_one]
    have e2 : ∀ x : ℝ, SignType.sign (x * b.unit.scale) = SignType.sign x := fun x => by
      rw [sign_mul, sign_pos ht, mul_one]
    have inf : ∀ s : SignType, (Xf.infinity s).affine (a.unit.mul b.unit).scale 0 = Xf.infinity s := by
      intro s; cases s <;> rfl
    cases a.mag <;> cases b.mag <;> simp [Xf.mul, Xf.sign, e1, e2, inf]
    simp only [PUnit.mul]; ring

theorem div (ha : HasX a d v r) (hb : HasX b e w r) (h0 : w ≠ .fin 0) :
    ∃ c, a.div b = .ok c ∧ HasX c (d.div e) (v.div w) r := by
  have hm : b.mag ≠ .fin 0 := fun h => h0 (hb.mag_zero.mp h)
  refine ⟨⟨a.mag.div b.mag, a.unit.div b.unit, a.reg⟩, ?_, ?_, rfl, ?_, ha.reg⟩
  · simp [QX.div, QX.sameReg, QX.noOffset, ha.reg, hb.reg, ha.off, hb.off, hm]
  · simp [PUnit.div, ha.dim, hb.dim]
  · rw [← ha.val, ← hb.val]
    have hs := a.unit.pos
    have ht := b.unit.pos
    have e2 : ∀ x : ℝ, SignType.sign (x * b.unit.scale) = SignType.sign x := fun x => by
      rw [sign_mul, sign_pos ht, mul_one]
    have inf : ∀ s : SignType, (Xf.infinity s).affine (a.unit.div b.unit).scale 0 = Xf.infinity s := by
      intro s; cases s <;> rfl
    cases a.mag <;> cases b.mag <;> simp [Xf.div, e2, inf]
    simp only [PUnit.div]
    field_simp

theorem div_zero (ha : HasX a d v r) (hb : HasX b e (.fin 0) r) : a.div b = .error .zeroDivision := by
  have hm : b.mag = .fin 0 := hb.mag_zero.mpr rfl
  simp [QX.div, QX.sameReg, QX.noOffset, ha.reg, hb.reg, ha.off, hb.off, hm]

private theorem affine_add (s t : ℝ) (hs : 0 < s) (x y : Xf) :
    (x.add ((y.affine t 0).affine (1 / s) 0)).affine s 0 = (x.affine s 0).add (y.affine t 0) := by
  cases x <;> cases y <;> simp [Xf.add]
  field_simp

theorem add (ha : HasX a d v r) (hb : HasX b d w r) : ∃ c, a.add b = .ok c ∧ HasX c d (v.add w) r := by
  refine ⟨⟨a.mag.add ((b.mag.affine b.unit.scale 0).affine (1 / a.unit.scale) 0), a.unit, a.reg⟩, ?_, ha.dim, ha.off,
    ?_, ha.reg⟩
  · simp [QX.add, QX.sameReg, QX.noOffset, ha.reg, hb.reg, ha.off, hb.off, ha.dim, hb.dim]
  · rw [← ha.val, ← hb.val]; exact affine_add _ _ a.unit.pos _ _

theorem sub (ha : HasX a d v r) (hb : HasX b d w r) : ∃ c, a.sub b = .ok c ∧ HasX c d (v.sub w) r := by
  refine ⟨⟨a.mag.sub ((b.mag.affine b.unit.scale 0).affine (1 / a.unit.scale) 0), a.unit, a.reg⟩, ?_, ha.dim, ha.off,
    ?_, ha.reg⟩
  · simp [QX.sub, QX.sameReg, QX.noOffset, ha.reg, hb.reg, ha.off, hb.off, ha.dim, hb.dim]
  · rw [← ha.val, ← hb.val]
    have hs := a.unit.pos
    cases a.mag <;> cases b.mag <;> simp [Xf.sub, Xf.add, Xf.neg]
    field_simp

theorem scale (k : Xf) (ha : HasX a d v r) : ∃ c, QX.scale k a = .ok c ∧ HasX c d (k.mul v) r := by
  refine ⟨⟨k.mul a.mag, a.unit, a.reg⟩, ?_, ha.dim, ha.off, ?_, ha.reg⟩
  · simp [QX.scale, QX.noOffset, ha.off]
  · rw [← ha.val]
    have hs := a.unit.pos
    have e1 : ∀ x : ℝ, SignType.sign (x * a.unit.scale) = SignType.sign x := fun x => by
      rw [sign_mul, sign_pos hs, mul_one]
    have inf : ∀ s : SignType, (Xf.infinity s).affine a.unit.scale 0 = Xf.infinity s := by
      intro s; cases s <;> rfl
    cases k <;> cases a.mag <;> simp [Xf.mul, Xf.sign, e1, inf]
    ring

theorem divNum (hk : k ≠ .fin 0) (ha : HasX a d v r) : ∃ c, a.divNum k = .ok c ∧ HasX c d (v.div k) r := by
  refine ⟨⟨a.mag.div k, a.unit, a.reg⟩, ?_, ha.dim, ha.off, ?_, ha.reg⟩
  · simp [QX.divNum, QX.noOffset, ha.off, hk]
  · rw [← ha.val]
    have inf : ∀ s : SignType, (Xf.infinity s).affine a.unit.scale 0 = Xf.infinity s := by
      intro s; cases s <;> rfl
    cases k <;> cases a.mag <;> simp [Xf.div, inf]
    ring

theorem rdiv (k : ℝ) (ha : HasX a d v r) (h0 : v ≠ .fin 0) :
    ∃ c, QX.rdiv (.fin k) a = .ok c ∧ HasX c (Dim.one.div d) ((Xf.fin k).div v) r := by
  have hm : a.mag ≠ .fin 0 := fun h => h0 (ha.mag_zero.mp h)
  refine ⟨⟨(Xf.fin k).div a.mag, PUnit.dimensionless.div a.unit, a.reg⟩, ?_, ?_, rfl, ?_, ha.reg⟩
  · simp [QX.rdiv, QX.noOffset, ha.off, hm]
  · simp [PUnit.div, PUnit.dimensionless, PUnit.base, ha.dim]
  · rw [← ha.val]
    have hs := a.unit.pos
    cases a.mag <;> simp [PUnit.div, PUnit.dimensionless, PUnit.base]
    field_simp

theorem addNum (k : Xf) (ha : HasX a Dim.one v r) :
    ∃ c, QX.addNum k a = .ok c ∧ HasX c Dim.one (k.add v) r := by
  refine ⟨⟨k.add a.phys, PUnit.dimensionless, a.reg⟩, ?_, rfl, rfl, ?_, ha.reg⟩
  · simp [QX.addNum, ha.dim]
  · rw [ha.phys]
    show (k.add v).affine 1 0 = k.add v
    cases k.add v <;> simp

/-- Squares: `x ** 2` is `x * x`. -/
theorem sq (ha : HasX a d v r) : ∃ c, a.pow 2 = .ok c ∧ HasX c (d.pow 2) (v.mul v) r := by
  obtain ⟨m, u, r'⟩ := a
  obtain ⟨hd, ho, hv, hr⟩ := ha
  dsimp at hd ho hv hr
  subst hv
  have hs := u.pos
  cases m with
  | nan => exact ⟨⟨.nan, u.pow 2, r'⟩, by simp [QX.pow, QX.noOffset, ho], by simp [PUnit.pow, hd], rfl, by simp, hr⟩
  | pinf => exact ⟨⟨.pinf, u.pow 2, r'⟩, by simp [QX.pow, QX.noOffset, ho], by simp [PUnit.pow, hd], rfl, by simp, hr⟩
  | ninf =>
    refine ⟨⟨.pinf, u.pow 2, r'⟩, ?_, by simp [PUnit.pow, hd], rfl, by simp, hr⟩
    simp [QX.pow, QX.noOffset, ho]
  | fin x =>
    have e : x ^ ((2 : ℚ) : ℝ) = x * x := by
      rw [show ((2 : ℚ) : ℝ) = ((2 : ℕ) : ℝ) by norm_num, Real.rpow_natCast]; ring
    have e' : u.scale ^ ((2 : ℚ) : ℝ) = u.scale * u.scale := by
      rw [show ((2 : ℚ) : ℝ) = ((2 : ℕ) : ℝ) by norm_num, Real.rpow_natCast]; ring
    refine ⟨⟨.fin (x ^ ((2 : ℚ) : ℝ)), u.pow 2, r'⟩, ?_, by simp [PUnit.pow, hd], rfl, ?_, hr⟩
    · simp [QX.pow, QX.noOffset, ho]
    · simp only [PUnit.pow, Xf.affine_fin, Xf.mul_fin, e, e', add_zero]; congr 1; ring

/-- Positive powers of NaN, `inf` and non-negative numbers. -/
theorem root {p : ℚ} (hp : 0 < p) (ha : HasX a d v r) (hv : v = .nan ∨ v = .pinf ∨ ∃ x, 0 ≤ x ∧ v = .fin x) :
    ∃ c, a.pow p = .ok c ∧ HasX c (d.pow p) (match v with
      | .fin x => .fin (x ^ (p : ℝ))
      | w => w) r := by
  obtain ⟨m, u, r'⟩ := a
  obtain ⟨hd, ho, hv', hr⟩ := ha
  dsimp at hd ho hv' hr
  subst hv'
  have hs := u.pos
  cases m with
  | nan => exact ⟨⟨.nan, u.pow p, r'⟩, by simp [QX.pow, QX.noOffset, ho], by simp [PUnit.pow, hd], rfl, by simp, hr⟩
  | pinf =>
    exact ⟨⟨.pinf, u.pow p, r'⟩, by simp [QX.pow, QX.noOffset, ho, hp], by simp [PUnit.pow, hd], rfl, by simp, hr⟩
  | ninf => rcases hv with h | h | ⟨x, -, h⟩ <;> cases h
  | fin x =>
    have hx : 0 ≤ x := by
      rcases hv with h | h | ⟨y, hy, h⟩
      · cases h
      · cases h
      · simp only [Xf.affine_fin, Xf.fin_inj, add_zero] at h
        rw [← h] at hy
        exact nonneg_of_mul_nonneg_left hy hs
    refine ⟨⟨.fin (x ^ (p : ℝ)), u.pow p, r'⟩, ?_, by simp [PUnit.pow, hd], rfl, ?_, hr⟩
    · simp [QX.pow, QX.noOffset, ho, not_lt.mpr hx, not_lt.mpr hp.le]
    · simp only [PUnit.pow, Xf.affine_fin, add_zero]
      rw [Real.mul_rpow hx hs.le]

theorem convert {u : PUnit} (ha : HasX a d v r) (hd : u.dim = d) (ho : u.offset = 0) :
    ∃ c, a.convert u = .ok c ∧ HasX c d v r ∧ c.unit = u := by
  have e : a.convert u = .ok ⟨a.phys.unaffine u.scale u.offset, u, a.reg⟩ := by
    unfold QX.convert; rw [if_pos (ha.dim.trans hd.symm)]
  refine ⟨_, e, ⟨hd, ho, ?_, ha.reg⟩, rfl⟩
  rw [ha.phys]
  have := u.pos.ne'
  cases v <;> simp [Xf.unaffine, ho, this]

theorem toNumber (ha : HasX a Dim.one v r) : a.toNumber = .ok v := by
  obtain ⟨c, e, h, hu⟩ := ha.convert (u := PUnit.dimensionless) rfl rfl
  simp only [QX.toNumber, e, ok_bind]
  have := h.val
  rw [hu] at this
  rw [← this]
  show _ = Except.ok (c.mag.affine 1 0)
  cases c.mag <;> simp

theorem lt (ha : HasX a d v r) (hb : HasX b d w r) : a.lt b = .ok (v.lt w) := by
  simp [QX.lt, QX.sameReg, ha.reg, hb.reg, ha.dim, hb.dim, ha.phys, hb.phys]

theorem ge (ha : HasX a d v r) (hb : HasX b d w r) : a.ge b = .ok (w.le v) := by
  simp [QX.ge, QX.sameReg, ha.reg, hb.reg, ha.dim, hb.dim, ha.phys, hb.phys]

end HasX

end Pypbomb
