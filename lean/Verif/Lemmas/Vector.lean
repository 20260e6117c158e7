import Verif.Model.Vector

/-! Array arithmetic computes, at each element, what scalar arithmetic computes there. -/

namespace Pypbomb
open Quantity

variable {n : ℕ} {i : Fin (n + 1)} {α β α' β' : Type}

/-- The outcomes NumPy replaces by inf/nan on arrays. -/
def Numeric (e : PyErr) : Prop := e = .zeroDivision ∨ e = .nonReal

/-- A scalar run `s` and an array run `v` correspond: same exception (unless numeric), or results
related by `R`. -/
def Rel (R : α → β → Prop) (s : Py α) (v : Py β) : Prop :=
  match s with
  | .ok a => ∃ b, v = .ok b ∧ R a b
  | .error e => Numeric e ∨ v = .error e

/-- Weaker: if both return, the results are related. -/
def Rel2 (R : α → β → Prop) (s : Py α) (v : Py β) : Prop :=
  ∀ a b, s = .ok a → v = .ok b → R a b

theorem Rel.bind {R : α → β → Prop} {S : α' → β' → Prop} {s : Py α} {v : Py β} {f : α → Py α'}
    {g : β → Py β'} (h : Rel R s v) (hf : ∀ a b, R a b → Rel S (f a) (g b)) :
    Rel S (s >>= f) (v >>= g) := by
  cases s with
  | ok a => obtain ⟨b, rfl, hR⟩ := h; exact hf a b hR
  | error e =>
    rcases h with h | rfl
    · exact Or.inl h
    · exact Or.inr rfl

theorem Rel.weaken {R : α → β → Prop} {s : Py α} {v : Py β} (h : Rel R s v) : Rel2 R s v := by
  rintro a b rfl rfl
  obtain ⟨b', h', hR⟩ := h
  cases h'; exact hR

theorem Rel2.bind {R : α → β → Prop} {S : α' → β' → Prop} {s : Py α} {v : Py β} {f : α → Py α'}
    {g : β → Py β'} (h : Rel2 R s v) (hf : ∀ a b, R a b → Rel2 S (f a) (g b)) :
    Rel2 S (s >>= f) (v >>= g) := by
  intro x y hx hy
  obtain ⟨a, ha, hx⟩ := bind_eq_ok.mp hx
  obtain ⟨b, hb, hy⟩ := bind_eq_ok.mp hy
  exact hf a b (h a b ha hb) x y hx hy

theorem Rel2.any {s : Py α} {v : Py β} : Rel2 (fun _ _ => True) s v := fun _ _ _ _ => trivial

theorem Rel.refl (s : Py α) : Rel Eq s s := by
  cases s with
  | ok a => exact ⟨a, rfl, rfl⟩
  | error e => exact Or.inr rfl

theorem Rel.ok {R : α → β → Prop} {a : α} {b : β} (h : R a b) : Rel R (.ok a) (.ok b) :=
  ⟨b, rfl, h⟩

/-- Element `i` of the array quantity is the scalar quantity. -/
structure Sim (i : Fin (n + 1)) (q : Quantity) (a : QArr n) : Prop where
  mag : a.mag i = some q.mag
  unit : a.unit = q.unit
  reg : a.reg = q.reg

theorem sim_const (q : Quantity) : Sim i q (QArr.const n q) := ⟨rfl, rfl, rfl⟩

variable {q p : Quantity} {a b : QArr n}

theorem Sim.toBase (h : Sim i q a) : Sim i q.toBase a.toBase :=
  ⟨by simp [QArr.toBase, Quantity.toBase, Quantity.phys, h.mag, h.unit],
   by simp [QArr.toBase, Quantity.toBase, h.unit], h.reg⟩

theorem rel_sameReg (h : Sim i q a) (h' : Sim i p b) :
    Rel (fun _ _ => True) (Quantity.sameReg q p) (QArr.sameReg a b) := by
  simp only [Quantity.sameReg, QArr.sameReg, h.reg, h'.reg]
  split
  · exact ⟨_, rfl, trivial⟩
  · exact Or.inr rfl

theorem rel_noOffset (h : Sim i q a) :
    Rel (fun _ _ => True) (Quantity.noOffset q) (QArr.noOffset a) := by
  simp only [Quantity.noOffset, QArr.noOffset, h.unit]
  split
  · exact ⟨_, rfl, trivial⟩
  · exact Or.inr rfl

theorem rel_convert (h : Sim i q a) {u u' : PUnit} (hu : u' = u) :
    Rel (Sim i) (q.convert u) (a.convert u') := by
  subst hu
  simp only [Quantity.convert, QArr.convert, h.unit]
  split
  · exact ⟨_, rfl, ⟨by simp [h.mag, Quantity.phys], rfl, h.reg⟩⟩
  · exact Or.inr rfl

theorem rel_mul (h : Sim i q a) (h' : Sim i p b) : Rel (Sim i) (q.mul p) (a.mul b) := by
  unfold Quantity.mul QArr.mul
  refine (rel_sameReg h h').bind fun _ _ _ => (rel_noOffset h).bind fun _ _ _ =>
    (rel_noOffset h').bind fun _ _ _ => Rel.ok ⟨?_, ?_, h.reg⟩
  · simp [QArr.zip, h.mag, h'.mag]
  · simp [h.unit, h'.unit]

theorem rel_div (h : Sim i q a) (h' : Sim i p b) : Rel (Sim i) (q.div p) (a.div b) := by
  unfold Quantity.div QArr.div
  refine (rel_sameReg h h').bind fun _ _ _ => (rel_noOffset h).bind fun _ _ _ =>
    (rel_noOffset h').bind fun _ _ _ => ?_
  split
  · exact Or.inl (Or.inl rfl)
  · rename_i h0
    refine Rel.ok ⟨?_, ?_, h.reg⟩
    · simp [QArr.zip, h.mag, h'.mag, h0]
    · simp [h.unit, h'.unit]

theorem rel_sub (h : Sim i q a) (h' : Sim i p b) : Rel (Sim i) (q.sub p) (a.sub b) := by
  unfold Quantity.sub QArr.sub
  refine (rel_sameReg h h').bind fun _ _ _ => ?_
  rw [h.unit, h'.unit]
  split
  · refine (rel_noOffset h).bind fun _ _ _ => (rel_noOffset h').bind fun _ _ _ =>
      Rel.ok ⟨?_, rfl, h.reg⟩
    simp [QArr.zip, h.mag, h'.mag]
  · exact Or.inr rfl

theorem rel_scale (k : ℝ) (h : Sim i q a) : Rel (Sim i) (Quantity.scale k q) (QArr.scale k a) := by
  unfold Quantity.scale QArr.scale
  exact (rel_noOffset h).bind fun _ _ _ => Rel.ok ⟨by simp [h.mag], h.unit, h.reg⟩

theorem rel_divNums (k : Fin (n + 1) → ℝ) (h : Sim i q a) :
    Rel (Sim i) (q.divNum (k i)) (a.divNums k) := by
  unfold Quantity.divNum QArr.divNums
  refine (rel_noOffset h).bind fun _ _ _ => ?_
  split
  · exact Or.inl (Or.inl rfl)
  · rename_i h0
    exact Rel.ok ⟨by simp [QArr.zip, h.mag, h0], h.unit, h.reg⟩

theorem rel_addNum (k : ℝ) (h : Sim i q a) :
    Rel (Sim i) (Quantity.addNum k q) (QArr.addNum k a) := by
  simp only [Quantity.addNum, QArr.addNum, h.unit]
  split
  · exact Rel.ok ⟨by simp [h.mag, Quantity.phys], rfl, h.reg⟩
  · exact Or.inr rfl

theorem rel_pow (r : ℚ) (h : Sim i q a) : Rel (Sim i) (q.pow r) (a.pow r) := by
  unfold Quantity.pow QArr.pow
  refine (rel_noOffset h).bind fun _ _ _ => ?_
  split
  · exact Or.inl (Or.inr rfl)
  · split
    · exact Or.inl (Or.inl rfl)
    · rename_i h1 h2
      refine Rel.ok ⟨?_, by simp [h.unit], h.reg⟩
      have : ¬ ((q.mag < 0 ∧ r.den ≠ 1) ∨ (q.mag = 0 ∧ r < 0)) := by
        rintro (h | h)
        · exact h1 h
        · exact h2 h
      simp only [h.mag, Option.bind_some, if_neg this]

theorem rel_toNumbers (h : Sim i q a) :
    Rel (fun x v => v i = some x) q.toNumber a.toNumbers := by
  unfold Quantity.toNumber QArr.toNumbers
  exact (rel_convert h rfl).bind fun _ _ h => Rel.ok h.mag

/-- Parsing an array argument is parsing its elements. -/
theorem rel_parse (x : AIn n) (reg : Registry) (i : Fin (n + 1)) :
    Rel (Sim i) (parseQ (x.elem i) reg) (parseA x reg) := by
  cases x with
  | quantity m u r => exact Rel.ok ⟨rfl, rfl, rfl⟩
  | pair m u =>
    simp only [AIn.elem, parseQ, parseA]
    cases reg.parse u with
    | none => exact Or.inr rfl
    | some pu => exact Rel.ok ⟨rfl, rfl, rfl⟩
  | scalar x =>
    simp only [AIn.elem, parseA]
    cases parseQ x reg with
    | ok q => exact Rel.ok (sim_const q)
    | error e => exact Or.inr rfl

/-- An array passes a check exactly when its first element does. -/
theorem rel_check (h : Sim 0 q a) (kind : String) (pos : Bool) :
    Rel (fun _ _ => True) (checkQ q kind pos) (checkA a kind pos) := by
  have : (⟨q.mag, a.unit, a.reg⟩ : Quantity) = q := Quantity.ext rfl h.unit h.reg
  simp only [checkA, h.mag, this]
  cases checkQ q kind pos with
  | ok a => exact ⟨_, rfl, trivial⟩
  | error e => exact Or.inr rfl

/-- `parseA` is `parseQuantInput` (units.py:84-114) on the Python object the argument stands for:
same exceptions, and the same magnitudes, unit and registry. -/
theorem parseA_agrees (m : Fin (n + 1) → ℝ) (reg : Registry) :
    (∀ u r, parseQuantInput (AIn.quantity m u r).toObj reg =
      .ok (.quantity (.arr (List.ofFn m)) u reg.id) ∧
      parseA (AIn.quantity m u r) reg = .ok ⟨fun i => some (m i), u, reg.id⟩) ∧
    (∀ u, parseQuantInput (AIn.pair m u).toObj reg =
      (parseA (AIn.pair m u) reg).map fun q => .quantity (.arr (List.ofFn m)) q.unit q.reg) ∧
    (∀ x, parseQuantInput (AIn.scalar (n := n) x).toObj reg = (parseQ x reg).map Quantity.toObj) := by
  refine ⟨fun u r => ⟨rfl, rfl⟩, fun u => ?_, fun x => parseQ_agrees x reg⟩
  simp only [AIn.toObj, parseQuantInput, Registry.quantity, parseA]
  cases reg.parse u <;> rfl

/-- `checkA` is `checkPintQuantity` (units.py:10-81) on the array. -/
theorem checkA_agrees (m : Fin (n + 1) → ℝ) (u : PUnit) (r : ℕ) (kind : String) (pos : Bool) :
    ((checkPintQuantity (.quantity (.arr (List.ofFn m)) u r) kind pos).map fun _ => ()) =
      checkA ⟨fun i => some (m i), u, r⟩ kind pos := by
  simp only [checkA, checkQ, checkPintQuantity, Quantity.toObj, List.ofFn_succ, ok_bind]
  cases supportedDims.lookup kind with
  | none => rfl
  | some d =>
    simp only
    split_ifs <;> rfl

namespace Window
variable {qL qW qT qP qM : Quantity} {aL aW aT aP aM : QArr n}

theorem rel_safetyFactorFormula (hL : Sim i qL aL) (hW : Sim i qW aW) (hT : Sim i qT aT)
    (hP : Sim i qP aP) (hM : Sim i qM aM) :
    Rel (fun x v => v i = some x) (safetyFactorFormula qL qW qT qP qM)
      (safetyFactorFormulaA aL aW aT aP aM) := by
  unfold safetyFactorFormula safetyFactorFormulaA
  refine (rel_div hL hW).bind fun _ _ h1 => (rel_div hT hL).bind fun _ _ h2 =>
    (rel_pow 2 h2).bind fun _ _ h3 => (rel_scale 2 hM).bind fun _ _ h4 =>
    (rel_pow 2 h1).bind fun _ _ h5 => (rel_addNum 1 h5).bind fun _ _ h6 =>
    (rel_mul h4 h6).bind fun _ _ h7 => (rel_mul h3 h7).bind fun _ _ h8 =>
    (rel_scale _ hP).bind fun _ _ h9 => (rel_div h8 h9).bind fun _ _ h10 => rel_toNumbers h10

theorem rel_thicknessFormula (hL : Sim i qL aL) (hW : Sim i qW aW) (sf : ℝ)
    (hP : Sim i qP aP) (hM : Sim i qM aM) :
    Rel (Sim i) (thicknessFormula qL qW sf qP qM) (thicknessFormulaA aL aW sf aP aM) := by
  unfold thicknessFormula thicknessFormulaA
  refine (rel_div hL hW).bind fun _ _ h1 => (rel_scale _ hL).bind fun _ _ h2 =>
    (rel_pow 2 h1).bind fun _ _ h3 => (rel_addNum 1 h3).bind fun _ _ h4 =>
    (rel_mul hM h4).bind fun _ _ h5 => (rel_div hP h5).bind fun _ _ h6 =>
    (rel_pow _ h6).bind fun _ _ h7 => (rel_mul h2 h7).bind fun _ _ h8 =>
    rel_convert h8 hW.unit

end Window

end Pypbomb
