/-
Relating two runs of the same program whose quantities differ only in the registry they belong to.
-/
import Verif.Spec
import Verif.Model.Bolt
import Verif.Model.DDT

namespace Pypbomb

/-- Two outcomes related by `R`: the same exception, or values related by `R`. -/
def Runs {α β : Type} (R : α → β → Prop) : Py α → Py β → Prop
  | .ok a, .ok b => R a b
  | .error e, .error e' => e = e'
  | _, _ => False

/-- The same magnitude and unit, in registries `r` and `s`. -/
def QR (r s : ℕ) (a b : Quantity) : Prop := a.reg = r ∧ b.reg = s ∧ a.mag = b.mag ∧ a.unit = b.unit

namespace Runs

theorem ok {α β : Type} {R : α → β → Prop} {a : α} {b : β} (h : R a b) : Runs R (.ok a) (.ok b) := h

theorem err {α β : Type} {R : α → β → Prop} (e : PyErr) : Runs R (.error e : Py α) (.error e : Py β) := rfl

theorem refl {α : Type} (x : Py α) : Runs Eq x x := by
  cases x <;> exact rfl

theorem bind {α β γ δ : Type} {R : α → β → Prop} {S : γ → δ → Prop} {x : Py α} {y : Py β} {f : α → Py γ} {g : β → Py δ}
    (h : Runs R x y) (k : ∀ a b, R a b → Runs S (f a) (g b)) : Runs S (x >>= f) (y >>= g) := by
  cases x <;> cases y
  · exact h
  · exact h.elim
  · exact h.elim
  · exact k _ _ h

theorem ite {α β : Type} {R : α → β → Prop} {p : Prop} [Decidable p] {x x' : Py α} {y y' : Py β} (h : p → Runs R x y)
    (h' : ¬ p → Runs R x' y') : Runs R (if p then x else x') (if p then y else y') := by
  by_cases hp : p <;> simp [hp, h, h']

theorem eq {α : Type} {x y : Py α} (h : Runs Eq x y) : x = y := by
  cases x <;> cases y
  · exact congrArg _ h
  · exact h.elim
  · exact h.elim
  · exact congrArg _ h

theorem map {α β : Type} {R : α → β → Prop} {x : Py α} {y : Py β} (f : α → β) (h : Runs R x y) (hf : ∀ a b, R a b → b = f a) :
    y = x.map f := by
  cases x <;> cases y
  · exact congrArg _ (Eq.symm h)
  · exact h.elim
  · exact h.elim
  · exact congrArg _ (hf _ _ h)

end Runs

namespace QR
variable {r s : ℕ} {a b c d : Quantity}

theorem mk (m : ℝ) (u : PUnit) : QR r s ⟨m, u, r⟩ ⟨m, u, s⟩ := ⟨rfl, rfl, rfl, rfl⟩

theorem phys (h : QR r s a b) : a.phys = b.phys := by
  obtain ⟨_, _, hm, hu⟩ := h; simp [Quantity.phys, hm, hu]

theorem toBase (h : QR r s a b) : QR r s a.toBase b.toBase := by
  refine ⟨h.1, h.2.1, h.phys, ?_⟩
  simp [Quantity.toBase, h.2.2.2]

theorem cases_eq (h : QR r s a b) : ∃ m u, a = ⟨m, u, r⟩ ∧ b = ⟨m, u, s⟩ := by
  obtain ⟨ma, ua, ra⟩ := a
  obtain ⟨mb, ub, rb⟩ := b
  obtain ⟨h1, h2, h3, h4⟩ := h
  simp only at h1 h2 h3 h4
  subst h1 h2 h3 h4
  exact ⟨_, _, rfl, rfl⟩

theorem noOffset (h : QR r s a b) : Runs Eq (Quantity.noOffset a) (Quantity.noOffset b) := by
  obtain ⟨m, u, rfl, rfl⟩ := h.cases_eq
  exact Runs.refl _

theorem sameReg (h : QR r s a b) (h' : QR r s c d) : Runs Eq (Quantity.sameReg a c) (Quantity.sameReg b d) := by
  simp [Quantity.sameReg, h.1, h.2.1, h'.1, h'.2.1, Runs.refl]

theorem mul (h : QR r s a b) (h' : QR r s c d) : Runs (QR r s) (a.mul c) (b.mul d) := by
  obtain ⟨m, u, rfl, rfl⟩ := h.cases_eq
  obtain ⟨m', u', rfl, rfl⟩ := h'.cases_eq
  refine Runs.bind (sameReg h h') fun _ _ _ => Runs.bind (noOffset h) fun _ _ _ => Runs.bind (noOffset h') fun _ _ _ => ?_
  exact mk _ _

theorem div (h : QR r s a b) (h' : QR r s c d) : Runs (QR r s) (a.div c) (b.div d) := by
  obtain ⟨m, u, rfl, rfl⟩ := h.cases_eq
  obtain ⟨m', u', rfl, rfl⟩ := h'.cases_eq
  refine Runs.bind (sameReg h h') fun _ _ _ => Runs.bind (noOffset h) fun _ _ _ => Runs.bind (noOffset h') fun _ _ _ => ?_
  exact Runs.ite (fun _ => Runs.err _) fun _ => Runs.ok (mk _ _)

theorem add (h : QR r s a b) (h' : QR r s c d) : Runs (QR r s) (a.add c) (b.add d) := by
  obtain ⟨m, u, rfl, rfl⟩ := h.cases_eq
  obtain ⟨m', u', rfl, rfl⟩ := h'.cases_eq
  refine Runs.bind (sameReg h h') fun _ _ _ => Runs.ite (fun _ => Runs.bind (noOffset h) fun _ _ _ =>
    Runs.bind (noOffset h') fun _ _ _ => Runs.ok (mk _ _)) fun _ => Runs.err _

theorem sub (h : QR r s a b) (h' : QR r s c d) : Runs (QR r s) (a.sub c) (b.sub d) := by
  obtain ⟨m, u, rfl, rfl⟩ := h.cases_eq
  obtain ⟨m', u', rfl, rfl⟩ := h'.cases_eq
  refine Runs.bind (sameReg h h') fun _ _ _ => Runs.ite (fun _ => Runs.bind (noOffset h) fun _ _ _ =>
    Runs.bind (noOffset h') fun _ _ _ => Runs.ok (mk _ _)) fun _ => Runs.err _

theorem scale (k : ℝ) (h : QR r s a b) : Runs (QR r s) (Quantity.scale k a) (Quantity.scale k b) := by
  obtain ⟨m, u, rfl, rfl⟩ := h.cases_eq
  exact Runs.bind (noOffset h) fun _ _ _ => Runs.ok (mk _ _)

theorem divNum (k : ℝ) (h : QR r s a b) : Runs (QR r s) (a.divNum k) (b.divNum k) := by
  obtain ⟨m, u, rfl, rfl⟩ := h.cases_eq
  exact Runs.bind (noOffset h) fun _ _ _ => Runs.ite (fun _ => Runs.err _) fun _ => Runs.ok (mk _ _)

theorem rdiv (k : ℝ) (h : QR r s a b) : Runs (QR r s) (Quantity.rdiv k a) (Quantity.rdiv k b) := by
  obtain ⟨m, u, rfl, rfl⟩ := h.cases_eq
  exact Runs.bind (noOffset h) fun _ _ _ => Runs.ite (fun _ => Runs.err _) fun _ => Runs.ok (mk _ _)

theorem addNum (k : ℝ) (h : QR r s a b) : Runs (QR r s) (Quantity.addNum k a) (Quantity.addNum k b) := by
  obtain ⟨m, u, rfl, rfl⟩ := h.cases_eq
  exact Runs.ite (fun _ => Runs.ok (mk _ _)) fun _ => Runs.err _

theorem pow (p : ℚ) (h : QR r s a b) : Runs (QR r s) (a.pow p) (b.pow p) := by
  obtain ⟨m, u, rfl, rfl⟩ := h.cases_eq
  exact Runs.bind (noOffset h) fun _ _ _ => Runs.ite (fun _ => Runs.err _) fun _ =>
    Runs.ite (fun _ => Runs.err _) fun _ => Runs.ok (mk _ _)

theorem convert (w : PUnit) (h : QR r s a b) : Runs (QR r s) (a.convert w) (b.convert w) := by
  obtain ⟨m, u, rfl, rfl⟩ := h.cases_eq
  exact Runs.ite (fun _ => Runs.ok (mk _ _)) fun _ => Runs.err _

theorem log (h : QR r s a b) : Runs Eq a.log b.log := by
  obtain ⟨m, u, rfl, rfl⟩ := h.cases_eq
  exact Runs.refl _

theorem lt (h : QR r s a b) (h' : QR r s c d) : Runs Eq (a.lt c) (b.lt d) := by
  obtain ⟨m, u, rfl, rfl⟩ := h.cases_eq
  obtain ⟨m', u', rfl, rfl⟩ := h'.cases_eq
  exact Runs.bind (sameReg h h') fun _ _ _ => Runs.refl _

theorem ge (h : QR r s a b) (h' : QR r s c d) : Runs Eq (a.ge c) (b.ge d) := by
  obtain ⟨m, u, rfl, rfl⟩ := h.cases_eq
  obtain ⟨m', u', rfl, rfl⟩ := h'.cases_eq
  exact Runs.bind (sameReg h h') fun _ _ _ => Runs.refl _

theorem toNumber (h : QR r s a b) : Runs Eq a.toNumber b.toNumber :=
  Runs.bind (convert _ h) fun _ _ h => Runs.ok h.2.2.1

theorem checkQ (kind : String) (pos : Bool) (h : QR r s a b) : Runs Eq (checkQ a kind pos) (checkQ b kind pos) := by
  obtain ⟨m, u, rfl, rfl⟩ := h.cases_eq
  exact Runs.refl _

end QR

/-! ### Quantities of several registries -/

/-- As `Runs`, but the second run may also end with pint's refusal to combine quantities of different registries. -/
def RunsM {α β : Type} (R : α → β → Prop) (x : Py α) (y : Py β) : Prop := y = .error .registryMismatch ∨ Runs R x y

/-- The same magnitude and unit, the first in registry `r`. -/
def QM (r : ℕ) (a b : Quantity) : Prop := a.reg = r ∧ a.mag = b.mag ∧ a.unit = b.unit

namespace RunsM

theorem bind {α β γ δ : Type} {R : α → β → Prop} {S : γ → δ → Prop} {x : Py α} {y : Py β} {f : α → Py γ} {g : β → Py δ}
    (h : RunsM R x y) (k : ∀ a b, R a b → RunsM S (f a) (g b)) : RunsM S (x >>= f) (y >>= g) := by
  rcases h with rfl | h
  · exact .inl rfl
  cases x <;> cases y
  · exact .inr h
  · exact h.elim
  · exact h.elim
  · exact k _ _ h

theorem ite {α β : Type} {R : α → β → Prop} {p : Prop} [Decidable p] {x x' : Py α} {y y' : Py β} (h : p → RunsM R x y)
    (h' : ¬ p → RunsM R x' y') : RunsM R (if p then x else x') (if p then y else y') := by
  by_cases hp : p <;> simp [hp, h, h']

end RunsM

namespace QM
variable {r : ℕ} {a b c d : Quantity}

theorem cases_eq (h : QM r a b) : ∃ m u s, a = ⟨m, u, r⟩ ∧ b = ⟨m, u, s⟩ := by
  obtain ⟨ma, ua, ra⟩ := a
  obtain ⟨mb, ub, rb⟩ := b
  obtain ⟨h1, h3, h4⟩ := h
  simp only at h1 h3 h4
  subst h1 h3 h4
  exact ⟨_, _, _, rfl, rfl⟩

theorem of_QR {s : ℕ} (h : QR r s a b) : QM r a b := ⟨h.1, h.2.2⟩

theorem lift₁ {f : Quantity → Py Quantity} (hf : ∀ s a b, QR r s a b → Runs (QR r s) (f a) (f b)) (h : QM r a b) :
    RunsM (QM r) (f a) (f b) := by
  obtain ⟨m, u, s, rfl, rfl⟩ := h.cases_eq
  have := hf s _ _ (QR.mk m u)
  refine .inr ?_
  revert this
  cases f ⟨m, u, r⟩ <;> cases f ⟨m, u, s⟩ <;> intro h
  · exact h
  · exact h
  · exact h
  · exact of_QR h

theorem lift₂ {f : Quantity → Quantity → Py Quantity}
    (hf : ∀ s a b c d, QR r s a b → QR r s c d → Runs (QR r s) (f a c) (f b d))
    (hm : ∀ a b : Quantity, a.reg ≠ b.reg → f a b = .error .registryMismatch) (h : QM r a b) (h' : QM r c d) :
    RunsM (QM r) (f a c) (f b d) := by
  obtain ⟨m, u, s, rfl, rfl⟩ := h.cases_eq
  obtain ⟨m', u', s', rfl, rfl⟩ := h'.cases_eq
  by_cases hs : s = s'
  · subst hs
    have := hf s _ _ _ _ (QR.mk m u) (QR.mk m' u')
    refine .inr ?_
    revert this
    cases f ⟨m, u, r⟩ ⟨m', u', r⟩ <;> cases f ⟨m, u, s⟩ ⟨m', u', s⟩ <;> intro h
    · exact h
    · exact h
    · exact h
    · exact of_QR h
  · exact .inl (hm _ _ hs)

theorem mul (h : QM r a b) (h' : QM r c d) : RunsM (QM r) (a.mul c) (b.mul d) :=
  lift₂ (fun _ _ _ _ _ => QR.mul) (fun a b h => by simp [Quantity.mul, Quantity.sameReg, h]) h h'

theorem div (h : QM r a b) (h' : QM r c d) : RunsM (QM r) (a.div c) (b.div d) :=
  lift₂ (fun _ _ _ _ _ => QR.div) (fun a b h => by simp [Quantity.div, Quantity.sameReg, h]) h h'

theorem add (h : QM r a b) (h' : QM r c d) : RunsM (QM r) (a.add c) (b.add d) :=
  lift₂ (fun _ _ _ _ _ => QR.add) (fun a b h => by simp [Quantity.add, Quantity.sameReg, h]) h h'

theorem sub (h : QM r a b) (h' : QM r c d) : RunsM (QM r) (a.sub c) (b.sub d) :=
  lift₂ (fun _ _ _ _ _ => QR.sub) (fun a b h => by simp [Quantity.sub, Quantity.sameReg, h]) h h'

theorem scale (k : ℝ) (h : QM r a b) : RunsM (QM r) (Quantity.scale k a) (Quantity.scale k b) :=
  lift₁ (fun _ _ _ => QR.scale k) h

theorem divNum (k : ℝ) (h : QM r a b) : RunsM (QM r) (a.divNum k) (b.divNum k) :=
  lift₁ (f := fun a => a.divNum k) (fun _ _ _ => QR.divNum k) h

theorem pow (p : ℚ) (h : QM r a b) : RunsM (QM r) (a.pow p) (b.pow p) :=
  lift₁ (f := fun a => a.pow p) (fun _ _ _ => QR.pow p) h

theorem convert (w : PUnit) (h : QM r a b) : RunsM (QM r) (a.convert w) (b.convert w) :=
  lift₁ (f := fun a => a.convert w) (fun _ _ _ => QR.convert w) h

end QM

/-! ### Registries of results -/

namespace Quantity
variable {a b o : Quantity}

theorem sameReg_ok {x : Unit} (h : sameReg a b = .ok x) : a.reg = b.reg := by
  unfold sameReg at h
  split at h
  · assumption
  · cases h

theorem mul_reg (h : a.mul b = .ok o) : a.reg = b.reg ∧ o.reg = a.reg := by
  simp only [mul, bind_eq_ok] at h
  obtain ⟨_, h1, _, _, _, _, h2⟩ := h
  cases h2
  exact ⟨sameReg_ok h1, rfl⟩

theorem div_reg (h : a.div b = .ok o) : a.reg = b.reg ∧ o.reg = a.reg := by
  simp only [div, bind_eq_ok] at h
  obtain ⟨_, h1, _, _, _, _, h2⟩ := h
  split at h2 <;> cases h2
  exact ⟨sameReg_ok h1, rfl⟩

theorem add_reg (h : a.add b = .ok o) : a.reg = b.reg ∧ o.reg = a.reg := by
  simp only [add, bind_eq_ok] at h
  obtain ⟨_, h1, h2⟩ := h
  split at h2
  · simp only [bind_eq_ok] at h2
    obtain ⟨_, _, _, _, h2⟩ := h2
    cases h2
    exact ⟨sameReg_ok h1, rfl⟩
  · cases h2

theorem sub_reg (h : a.sub b = .ok o) : a.reg = b.reg ∧ o.reg = a.reg := by
  simp only [sub, bind_eq_ok] at h
  obtain ⟨_, h1, h2⟩ := h
  split at h2
  · simp only [bind_eq_ok] at h2
    obtain ⟨_, _, _, _, h2⟩ := h2
    cases h2
    exact ⟨sameReg_ok h1, rfl⟩
  · cases h2

theorem scale_reg {k : ℝ} (h : scale k a = .ok o) : o.reg = a.reg := by
  simp only [scale, bind_eq_ok] at h
  obtain ⟨_, _, h⟩ := h
  cases h
  rfl

theorem divNum_reg {k : ℝ} (h : a.divNum k = .ok o) : o.reg = a.reg := by
  simp only [divNum, bind_eq_ok] at h
  obtain ⟨_, _, h⟩ := h
  split at h <;> cases h
  rfl

theorem pow_reg {p : ℚ} (h : a.pow p = .ok o) : o.reg = a.reg := by
  simp only [pow, bind_eq_ok] at h
  obtain ⟨_, _, h⟩ := h
  split at h
  · cases h
  split at h <;> cases h
  rfl

end Quantity

end Pypbomb
