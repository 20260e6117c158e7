/-
Floats that may be NaN: on numbers every operation is the operation of `Model/Pint.lean`; with NaN it gives NaN.
-/
import Verif.Model.Nan

namespace Pypbomb

theorem map_bind' {α β γ : Type} (f : β → γ) (x : Py α) (g : α → Py β) :
    Except.map f (x >>= g) = x >>= fun a => Except.map f (g a) := by cases x <;> rfl

theorem bind_map' {α β γ : Type} (f : α → β) (x : Py α) (g : β → Py γ) :
    (Except.map f x >>= g) = x >>= fun a => g (f a) := by cases x <;> rfl

@[simp] theorem map_ok' {α β : Type} (f : α → β) (a : α) :
    Except.map f (Except.ok a : Py α) = .ok (f a) := rfl
@[simp] theorem map_err' {α β : Type} (f : α → β) (e : PyErr) :
    Except.map f (Except.error e : Py α) = .error e := rfl

theorem map_ite' {α β : Type} (f : α → β) (c : Prop) [Decidable c] (a b : Py α) :
    Except.map f (if c then a else b) = if c then Except.map f a else Except.map f b := by split <;> rfl

theorem map_id' {α : Type} (x : Py α) : Except.map (fun a => a) x = x := by cases x <;> rfl

namespace Flt
variable {f : ℝ → ℝ} {f2 : ℝ → ℝ → ℝ} {x y : ℝ} {a b : Flt}

@[simp] theorem op1_some : op1 f (some x) = some (f x) := rfl
@[simp] theorem op2_some : op2 f2 (some x) (some y) = some (f2 x y) := rfl
@[simp] theorem lt_some : lt (some x) (some y) = decide (x < y) := rfl
@[simp] theorem le_some : le (some x) (some y) = decide (x ≤ y) := rfl
@[simp] theorem lt_none_left : lt none a = false := by cases a <;> rfl
@[simp] theorem lt_none_right : lt a none = false := by cases a <;> rfl
@[simp] theorem le_none_left : le none a = false := by cases a <;> rfl
@[simp] theorem le_none_right : le a none = false := by cases a <;> rfl
@[simp] theorem op1_none_iff : op1 f a = none ↔ a = none := by cases a <;> simp [op1]
@[simp] theorem op2_none_iff : op2 f2 a b = none ↔ a = none ∨ b = none := by
  cases a <;> cases b <;> simp [op2]
@[simp] theorem op1_none : op1 f none = none := rfl
@[simp] theorem op2_none_left : op2 f2 none a = none := by cases a <;> rfl
@[simp] theorem op2_none_right : op2 f2 a none = none := by cases a <;> rfl

end Flt

namespace QN
variable {a b c : QN} {q q' : Quantity} {k : Flt} {x : ℝ} {p : ℚ} {u : PUnit}

/-! ### On numbers -/

@[simp] theorem ofQ_mag : (ofQ q).mag = some q.mag := rfl
@[simp] theorem ofQ_unit : (ofQ q).unit = q.unit := rfl
@[simp] theorem ofQ_reg : (ofQ q).reg = q.reg := rfl
theorem mk_some (m : ℝ) (u : PUnit) (r : ℕ) : (⟨some m, u, r⟩ : QN) = ofQ ⟨m, u, r⟩ := rfl
@[simp] theorem ofQ_phys : (ofQ q).phys = some q.phys := rfl
theorem ofQ_toBase : (ofQ q).toBase = ofQ q.toBase := rfl

theorem ofQ_convert : (ofQ q).convert u = (q.convert u).map ofQ := by
  unfold convert Quantity.convert; simp only [ofQ_unit, map_ite']; rfl
theorem ofQ_sameReg : sameReg (ofQ q) (ofQ q') = Quantity.sameReg q q' := rfl
theorem ofQ_noOffset : noOffset (ofQ q) = Quantity.noOffset q := rfl
theorem ofQ_mul : (ofQ q).mul (ofQ q') = (q.mul q').map ofQ := by
  unfold mul Quantity.mul; simp only [ofQ_sameReg, ofQ_noOffset, map_bind']; rfl
theorem ofQ_div : (ofQ q).div (ofQ q') = (q.div q').map ofQ := by
  unfold div Quantity.div
  simp only [ofQ_sameReg, ofQ_noOffset, map_bind', map_ite', ofQ_mag, Option.some.injEq]; rfl
theorem ofQ_add : (ofQ q).add (ofQ q') = (q.add q').map ofQ := by
  unfold add Quantity.add
  simp only [ofQ_sameReg, ofQ_noOffset, map_bind', map_ite', ofQ_unit]; rfl
theorem ofQ_sub : (ofQ q).sub (ofQ q') = (q.sub q').map ofQ := by
  unfold sub Quantity.sub
  simp only [ofQ_sameReg, ofQ_noOffset, map_bind', map_ite', ofQ_unit]; rfl
theorem ofQ_scale : scale (some x) (ofQ q) = (Quantity.scale x q).map ofQ := by
  unfold scale Quantity.scale; simp only [ofQ_noOffset, map_bind']; rfl
theorem ofQ_divNum : (ofQ q).divNum (some x) = (q.divNum x).map ofQ := by
  unfold divNum Quantity.divNum
  simp only [ofQ_noOffset, map_bind', map_ite', Option.some.injEq]; rfl
theorem ofQ_rdiv : rdiv (some x) (ofQ q) = (Quantity.rdiv x q).map ofQ := by
  unfold rdiv Quantity.rdiv
  simp only [ofQ_noOffset, map_bind', map_ite', ofQ_mag, Option.some.injEq]; rfl
theorem ofQ_addNum : addNum (some x) (ofQ q) = (Quantity.addNum x q).map ofQ := by
  unfold addNum Quantity.addNum; simp only [map_ite', ofQ_unit]; rfl
theorem ofQ_pow : (ofQ q).pow p = (q.pow p).map ofQ := by
  unfold pow Quantity.pow
  simp only [ofQ_noOffset, map_bind', map_ite', ofQ_mag]; rfl
theorem ofQ_log : (ofQ q).log = q.log.map some := by
  unfold log Quantity.log
  simp only [map_ite', ofQ_unit, ofQ_phys]; rfl
theorem ofQ_lt : (ofQ q).lt (ofQ q') = q.lt q' := by
  unfold lt Quantity.lt; simp only [ofQ_sameReg, ofQ_unit, ofQ_phys, Flt.lt_some]; congr!
theorem ofQ_ge : (ofQ q).ge (ofQ q') = q.ge q' := by
  unfold ge Quantity.ge; simp only [ofQ_sameReg, ofQ_unit, ofQ_phys, Flt.le_some]; congr!
theorem ofQ_toNumber : (ofQ q).toNumber = q.toNumber.map some := by
  unfold toNumber Quantity.toNumber; simp only [ofQ_convert, bind_map', map_bind']; rfl

/-! ### NaN in, NaN out -/

@[simp] theorem phys_none : a.phys = none ↔ a.mag = none := Flt.op1_none_iff
@[simp] theorem toBase_none : a.toBase.mag = none ↔ a.mag = none := phys_none

theorem unit_none {x : Py Unit} {f : Unit → Py QN} (h : (x >>= f) = .ok c) : f () = .ok c := by
  obtain ⟨⟨⟩, -, h⟩ := bind_eq_ok.mp h; exact h

theorem convert_none (h : a.convert u = .ok c) : c.mag = none ↔ a.mag = none := by
  unfold convert at h; split at h
  · cases h; simp
  · cases h
theorem mul_none (h : a.mul b = .ok c) : c.mag = none ↔ a.mag = none ∨ b.mag = none := by
  have h := unit_none (unit_none (unit_none h)); cases h; simp
theorem div_none (h : a.div b = .ok c) : c.mag = none ↔ a.mag = none ∨ b.mag = none := by
  have h := unit_none (unit_none (unit_none h)); split at h <;> cases h; simp
theorem add_none (h : a.add b = .ok c) : c.mag = none ↔ a.mag = none ∨ b.mag = none := by
  have h := unit_none h
  split at h
  · have h := unit_none (unit_none h); cases h; simp
  · cases h
theorem sub_none (h : a.sub b = .ok c) : c.mag = none ↔ a.mag = none ∨ b.mag = none := by
  have h := unit_none h
  split at h
  · have h := unit_none (unit_none h); cases h; simp
  · cases h
theorem scale_none (h : scale k a = .ok c) : c.mag = none ↔ k = none ∨ a.mag = none := by
  have h := unit_none h; cases h; simp
theorem divNum_none (h : a.divNum k = .ok c) : c.mag = none ↔ a.mag = none ∨ k = none := by
  have h := unit_none h; split at h <;> cases h; simp
theorem rdiv_none (h : rdiv k a = .ok c) : c.mag = none ↔ k = none ∨ a.mag = none := by
  have h := unit_none h; split at h <;> cases h; simp
theorem addNum_none (h : addNum k a = .ok c) : c.mag = none ↔ k = none ∨ a.mag = none := by
  unfold addNum at h; split at h <;> cases h; simp
theorem pow_none (h : a.pow p = .ok c) : c.mag = none ↔ a.mag = none := by
  have h := unit_none h
  split at h
  · rename_i e; cases h; simp [e]
  · rename_i x e
    split at h
    · cases h
    · split at h <;> cases h
      simp [e]
theorem log_none {l : Flt} (h : a.log = .ok l) : l = none ↔ a.mag = none := by
  unfold log at h
  split at h
  · split at h
    · rename_i e; cases h; simp [← phys_none, e]
    · rename_i x e
      split at h <;> cases h
      simp [← phys_none, e]
  · cases h
theorem toNumber_none {l : Flt} (h : a.toNumber = .ok l) : l = none ↔ a.mag = none := by
  obtain ⟨r, h1, h2⟩ := bind_eq_ok.mp h
  cases h2; exact convert_none h1
theorem lt_nan {v : Bool} (h : a.lt b = .ok v) (hn : a.mag = none ∨ b.mag = none) : v = false := by
  obtain ⟨⟨⟩, -, h⟩ := bind_eq_ok.mp h
  split at h <;> cases h
  rcases hn with hn | hn <;> rw [← phys_none] at hn <;> simp [hn]

end QN

/-! ### Arguments -/

variable {reg : Registry} {x : QIn} {y : NIn} {kind : String} {pos : Bool} {q : QN}

theorem ofQIn_parse : parseN (NIn.ofQIn x) reg = (parseQ x reg).map QN.ofQ := by
  cases x with
  | quantity q => rfl
  | pair m u => unfold parseN parseQ NIn.ofQIn; dsimp; cases reg.parse u <;> rfl
  | other => rfl

theorem ofQ_check (q : Quantity) : checkN (QN.ofQ q) kind pos = checkQ q kind pos := rfl

theorem parse_none (h : parseN y reg = .ok q) : q.mag = none ↔ y.IsNan := by
  cases y with
  | quantity q' => cases h; rfl
  | pair m u =>
    unfold parseN at h; dsimp at h
    split at h <;> cases h; rfl
  | other => cases h

theorem checked_none (h : checkedN y kind pos = .ok q) : q.mag = none ↔ y.IsNan := by
  cases y with
  | quantity q' =>
    obtain ⟨⟨⟩, -, h⟩ := bind_eq_ok.mp h
    cases h; rfl
  | pair m u => cases h
  | other => cases h

theorem ofQIn_checked : checkedN (NIn.ofQIn x) kind pos = (Tube.checked x kind pos).map QN.ofQ := by
  cases x with
  | quantity q => unfold checkedN Tube.checked NIn.ofQIn; simp only [ofQ_check, map_bind']; rfl
  | pair m u => rfl
  | other => rfl

theorem ofQIn_checkArg : checkedN (NIn.ofQIn x) kind true = (Bolt.checkArg x kind).map QN.ofQ := by
  cases x with
  | quantity q => unfold checkedN Bolt.checkArg NIn.ofQIn; simp only [ofQ_check, map_bind']; rfl
  | pair m u => rfl
  | other => rfl

end Pypbomb
