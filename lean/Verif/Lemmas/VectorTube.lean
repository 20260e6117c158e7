/-
Array calls with conditions: element by element they do what the scalar calls do, or NumPy refuses the condition.
-/
import Verif.Lemmas.Vector
import Verif.Model.VectorTube

namespace Pypbomb
open Quantity

variable {n : ℕ} {i : Fin (n + 1)} {α β α' β' : Type}

/-- As `Rel`, but the array run, if there is more than one element, may also end with the ValueError of an ambiguous truth
value. -/
def RelT (n : ℕ) (R : α → β → Prop) (s : Py α) (v : Py β) : Prop := (n ≠ 0 ∧ v = .error .ambiguousTruth) ∨ Rel R s v

theorem RelT.bind {R : α → β → Prop} {S : α' → β' → Prop} {s : Py α} {v : Py β} {f : α → Py α'} {g : β → Py β'}
    (h : RelT n R s v) (hf : ∀ a b, R a b → RelT n S (f a) (g b)) : RelT n S (s >>= f) (v >>= g) := by
  rcases h with ⟨hn, rfl⟩ | h
  · exact .inl ⟨hn, rfl⟩
  cases s with
  | ok a => obtain ⟨b, rfl, hR⟩ := h; exact hf a b hR
  | error e =>
    rcases h with h | rfl
    · exact .inr (.inl h)
    · exact .inr (.inr rfl)

theorem Rel.toT {R : α → β → Prop} {s : Py α} {v : Py β} (h : Rel R s v) : RelT n R s v := .inr h

theorem RelT.weaken {R : α → β → Prop} {s : Py α} {v : Py β} (h : RelT n R s v) : Rel2 R s v := by
  rcases h with ⟨-, rfl⟩ | h
  · intro a b _ hb; cases hb
  · exact h.weaken

theorem RelT.ite {R : α → β → Prop} {p : Prop} [Decidable p] {s s' : Py α} {v v' : Py β} (h : p → RelT n R s v)
    (h' : ¬ p → RelT n R s' v') : RelT n R (if p then s else s') (if p then v else v') := by
  by_cases hp : p <;> simp [hp, h, h']

theorem Rel.mapR {R : α → β → Prop} {S : α → β' → Prop} {s : Py α} {v : Py β} (f : β → β') (h : Rel R s v)
    (hf : ∀ a b, R a b → S a (f b)) : Rel S s (v.map f) := by
  cases s with
  | ok a => obtain ⟨b, rfl, hR⟩ := h; exact ⟨_, rfl, hf _ _ hR⟩
  | error e =>
    rcases h with h | rfl
    · exact .inl h
    · exact .inr rfl

/-- Element `i` of a scalar or array quantity. -/
def VSim (i : Fin (n + 1)) (q : Quantity) (v : VQ n) : Prop := v.get i = some q

theorem vsim_one (q : Quantity) : VSim i q (VQ.one (n := n) q) := rfl

theorem vsim_arr {q : Quantity} {a : QArr n} : VSim i q (.arr a) ↔ Sim i q a := by
  unfold VSim VQ.get
  constructor
  · intro h
    obtain ⟨x, hx, rfl⟩ := Option.map_eq_some_iff.mp h
    exact ⟨hx, rfl, rfl⟩
  · intro h
    obtain ⟨m, u, r⟩ := q
    simp only [h.mag, Option.map_some]
    rw [h.unit, h.reg]

theorem VSim.bcast {q : Quantity} {v : VQ n} (h : VSim i q v) : Sim i q v.bcast := by
  cases v with
  | one q' =>
    have : q' = q := by simpa [VSim, VQ.get] using h
    subst this
    exact sim_const _
  | arr a => exact vsim_arr.mp h

theorem VSim.unit {q : Quantity} {v : VQ n} (h : VSim i q v) : v.unit = q.unit := by
  cases v with
  | one q' =>
    have : q' = q := by simpa [VSim, VQ.get] using h
    rw [this]; rfl
  | arr a => exact (vsim_arr.mp h).unit

theorem VSim.mag {q : Quantity} {v : VQ n} (h : VSim i q v) : v.mag.get i = some q.mag := by
  cases v with
  | one q' =>
    have : q' = q := by simpa [VSim, VQ.get] using h
    rw [this]; rfl
  | arr a => exact (vsim_arr.mp h).mag

theorem VSim.toBase {q : Quantity} {v : VQ n} (h : VSim i q v) : VSim i q.toBase v.toBase := by
  cases v with
  | one q' =>
    have : q' = q := by simpa [VSim, VQ.get] using h
    rw [this]; rfl
  | arr a => exact vsim_arr.mpr (vsim_arr.mp h).toBase

variable {q p : Quantity} {a b : VQ n}

theorem rel_lift₁ {f : Quantity → Py Quantity} {g : QArr n → Py (QArr n)}
    (hfg : ∀ q a, Sim i q a → Rel (Sim i) (f q) (g a)) (h : VSim i q a) : Rel (VSim i) (f q) (VQ.lift₁ f g a) := by
  cases a with
  | one q' =>
    have : q' = q := by simpa [VSim, VQ.get] using h
    subst this
    exact (Rel.refl _).mapR _ fun _ _ h => by subst h; rfl
  | arr a => exact (hfg _ _ (vsim_arr.mp h)).mapR _ fun _ _ h => vsim_arr.mpr h

theorem rel_lift₂ {f : Quantity → Quantity → Py Quantity} {g : QArr n → QArr n → Py (QArr n)}
    (hfg : ∀ q a p b, Sim i q a → Sim i p b → Rel (Sim i) (f q p) (g a b)) (h : VSim i q a) (h' : VSim i p b) :
    Rel (VSim i) (f q p) (VQ.lift₂ f g a b) := by
  have hb := h.bcast
  have hb' := h'.bcast
  cases a with
  | one q' =>
    cases b with
    | one p' =>
      have : q' = q := by simpa [VSim, VQ.get] using h
      subst this
      have : p' = p := by simpa [VSim, VQ.get] using h'
      subst this
      exact (Rel.refl _).mapR _ fun _ _ h => by subst h; rfl
    | arr b => exact (hfg _ _ _ _ hb hb').mapR _ fun _ _ h => vsim_arr.mpr h
  | arr a => exact (hfg _ _ _ _ hb hb').mapR _ fun _ _ h => vsim_arr.mpr h

theorem rel_addA {q p : Quantity} {a b : QArr n} (h : Sim i q a) (h' : Sim i p b) : Rel (Sim i) (q.add p) (a.add b) := by
  unfold Quantity.add QArr.add
  refine (rel_sameReg h h').bind fun _ _ _ => ?_
  rw [h.unit, h'.unit]
  split
  · refine (rel_noOffset h).bind fun _ _ _ => (rel_noOffset h').bind fun _ _ _ =>
      Rel.ok ⟨?_, rfl, h.reg⟩
    simp [QArr.zip, h.mag, h'.mag]
  · exact Or.inr rfl

namespace VSim

theorem mul (h : VSim i q a) (h' : VSim i p b) : Rel (VSim i) (q.mul p) (a.mul b) :=
  rel_lift₂ (fun _ _ _ _ => rel_mul) h h'
theorem div (h : VSim i q a) (h' : VSim i p b) : Rel (VSim i) (q.div p) (a.div b) :=
  rel_lift₂ (fun _ _ _ _ => rel_div) h h'
theorem add (h : VSim i q a) (h' : VSim i p b) : Rel (VSim i) (q.add p) (a.add b) :=
  rel_lift₂ (fun _ _ _ _ => rel_addA) h h'
theorem sub (h : VSim i q a) (h' : VSim i p b) : Rel (VSim i) (q.sub p) (a.sub b) :=
  rel_lift₂ (fun _ _ _ _ => rel_sub) h h'
theorem scale (k : ℝ) (h : VSim i q a) : Rel (VSim i) (Quantity.scale k q) (VQ.scale k a) :=
  rel_lift₁ (fun _ _ => rel_scale k) h
theorem divNum (k : ℝ) (h : VSim i q a) : Rel (VSim i) (q.divNum k) (a.divNum k) :=
  rel_lift₁ (f := fun q => q.divNum k) (fun _ _ => rel_divNums fun _ => k) h
theorem pow (r : ℚ) (h : VSim i q a) : Rel (VSim i) (q.pow r) (a.pow r) :=
  rel_lift₁ (f := fun q => q.pow r) (fun _ _ => rel_pow r) h
theorem convert (u : PUnit) (h : VSim i q a) : Rel (VSim i) (q.convert u) (a.convert u) :=
  rel_lift₁ (f := fun q => q.convert u) (fun _ _ h => rel_convert h rfl) h

end VSim

theorem relV_parse (x : AIn n) (reg : Registry) (i : Fin (n + 1)) : Rel (VSim i) (parseQ (x.elem i) reg) (parseV x reg) := by
  cases x with
  | scalar x => exact (Rel.refl _).mapR _ fun _ _ h => by subst h; rfl
  | quantity m u r => exact (rel_parse (.quantity m u r) reg i).mapR _ fun _ _ h => vsim_arr.mpr h
  | pair m u => exact (rel_parse (.pair m u) reg i).mapR _ fun _ _ h => vsim_arr.mpr h

theorem relV_check (h : VSim 0 q a) (kind : String) (pos : Bool) :
    Rel (fun _ _ => True) (checkQ q kind pos) (checkV a kind pos) := by
  cases a with
  | one q' =>
    have : q' = q := by simpa [VSim, VQ.get] using h
    subst this
    show Rel (fun _ _ => True) (checkQ q' kind pos) (checkQ q' kind pos)
    cases checkQ q' kind pos with
    | ok x => exact ⟨x, rfl, trivial⟩
    | error e => exact .inr rfl
  | arr a => exact rel_check (vsim_arr.mp h) kind pos

/-- Conditions on numbers. -/
theorem rel_cond {R : ℝ → ℝ → Bool} {x y : ℝ} {v w : VN n} (hv : v.get 0 = some x) (hw : w.get 0 = some y) :
    RelT n Eq (.ok (R x y)) (VN.cond R v w) := by
  have key : RelT n Eq (.ok (R x y)) (VN.truth fun i : Fin (n + 1) => (v.get i).bind fun x => (w.get i).map fun y => R x y) := by
    unfold VN.truth
    split
    · simp only [hv, hw, Option.bind_some, Option.map_some]
      exact .inr ⟨_, rfl, rfl⟩
    · exact .inl ⟨by assumption, rfl⟩
  cases v with
  | one x' =>
    cases w with
    | one y' =>
      simp only [VN.get, Option.some.injEq] at hv hw
      subst hv hw
      exact .inr ⟨_, rfl, rfl⟩
    | arr b => exact key
  | arr a => exact key

theorem cond_arr {R : ℝ → ℝ → Bool} {v w : VN n} (hn : n ≠ 0) (h : v.isArr = true ∨ w.isArr = true) :
    VN.cond R v w = .error .ambiguousTruth := by
  cases v with
  | one x =>
    cases w with
    | one y => simp [VN.isArr] at h
    | arr b => simp [VN.cond, VN.truth, hn]
  | arr a => simp [VN.cond, VN.truth, hn]

/-- Comparisons of quantities. -/
theorem rel_lt (h : VSim 0 q a) (h' : VSim 0 p b) : RelT n Eq (q.lt p) (a.lt b) := by
  have hb := h.bcast
  have hb' := h'.bcast
  have key : RelT n Eq (q.lt p) (do let c ← a.bcast.lt b.bcast; VN.truth c) := by
    unfold Quantity.lt QArr.lt
    rw [bind_assoc]
    refine (rel_sameReg hb hb').toT.bind fun _ _ _ => ?_
    rw [hb.unit, hb'.unit]
    split
    · simp only [ok_bind, VN.truth]
      split
      · simp only [hb.mag, hb'.mag, Option.bind_some, Option.map_some]
        exact .inr ⟨_, rfl, rfl⟩
      · exact .inl ⟨by assumption, rfl⟩
    · exact .inr (.inr rfl)
  cases a with
  | one q' =>
    cases b with
    | one p' =>
      have : q' = q := by simpa [VSim, VQ.get] using h
      subst this
      have : p' = p := by simpa [VSim, VQ.get] using h'
      subst this
      exact .inr (Rel.refl _)
    | arr b => exact key
  | arr a => exact key

theorem rel_ge (h : VSim 0 q a) (h' : VSim 0 p b) : RelT n Eq (q.ge p) (a.ge b) := by
  have hb := h.bcast
  have hb' := h'.bcast
  have key : RelT n Eq (q.ge p) (do let c ← a.bcast.ge b.bcast; VN.truth c) := by
    unfold Quantity.ge QArr.ge
    rw [bind_assoc]
    refine (rel_sameReg hb hb').toT.bind fun _ _ _ => ?_
    rw [hb.unit, hb'.unit]
    split
    · simp only [ok_bind, VN.truth]
      split
      · simp only [hb.mag, hb'.mag, Option.bind_some, Option.map_some]
        exact .inr ⟨_, rfl, rfl⟩
      · exact .inl ⟨by assumption, rfl⟩
    · exact .inr (.inr rfl)
  cases a with
  | one q' =>
    cases b with
    | one p' =>
      have : q' = q := by simpa [VSim, VQ.get] using h
      subst this
      have : p' = p := by simpa [VSim, VQ.get] using h'
      subst this
      exact .inr (Rel.refl _)
    | arr b => exact key
  | arr a => exact key

/-- A comparison with an array of more than one element never gives a condition. -/
theorem lt_arr {x : Bool} (hn : n ≠ 0) (h : a.isArr = true ∨ b.isArr = true) : a.lt b ≠ .ok x := by
  cases a with
  | one q =>
    cases b with
    | one p => simp [VQ.isArr] at h
    | arr b => simp [VQ.lt, bind_eq_ok, VN.truth, hn]
  | arr a => simp [VQ.lt, bind_eq_ok, VN.truth, hn]

theorem ge_arr {x : Bool} (hn : n ≠ 0) (h : a.isArr = true ∨ b.isArr = true) : a.ge b ≠ .ok x := by
  cases a with
  | one q =>
    cases b with
    | one p => simp [VQ.isArr] at h
    | arr b => simp [VQ.ge, bind_eq_ok, VN.truth, hn]
  | arr a => simp [VQ.ge, bind_eq_ok, VN.truth, hn]

/-- Arrays stay arrays. -/
theorem isArr_lift₁ {f : Quantity → Py Quantity} {g : QArr n → Py (QArr n)} {o : VQ n} (h : VQ.lift₁ f g a = .ok o) :
    o.isArr = a.isArr := by
  cases a with
  | one q =>
    unfold VQ.lift₁ at h
    cases hf : f q <;> simp [hf, Except.map] at h
    subst h; rfl
  | arr a =>
    unfold VQ.lift₁ at h
    cases hf : g a <;> simp [hf, Except.map] at h
    subst h; rfl

theorem isArr_lift₂ {f : Quantity → Quantity → Py Quantity} {g : QArr n → QArr n → Py (QArr n)} {o : VQ n}
    (h : VQ.lift₂ f g a b = .ok o) : o.isArr = (a.isArr || b.isArr) := by
  have key : (g a.bcast b.bcast).map VQ.arr = .ok o → o.isArr = true := by
    intro h
    cases hf : g a.bcast b.bcast <;> simp [hf, Except.map] at h
    subst h; rfl
  cases a with
  | one q =>
    cases b with
    | one p =>
      unfold VQ.lift₂ at h
      cases hf : f q p <;> simp [hf, Except.map] at h
      subst h; rfl
    | arr b => simpa [VQ.isArr] using key h
  | arr a => simpa [VQ.isArr] using key h

end Pypbomb
