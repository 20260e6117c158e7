/-
Lemmas about the refinement loop of `cj_speed`.
-/
import Verif.Props.SD
import Verif.Props.CurveFit
import Verif.Lemmas.TVGas

namespace Pypbomb.SD

/-! ### Collecting and sorting results -/

/-- A way to run the 21 evaluations that returns all results, in any order, or, if some evaluation
raised, raises one of the exceptions.  (`map` and `Pool.starmap` under every schedule.) -/
structure Fair (collect : Collect) : Prop where
  all : ∀ vs : List (ℕ × ℝ), ∃ p, collect (vs.map .ok) = .ok p ∧ p.Perm vs
  err : ∀ l e, Except.error e ∈ l → ∃ e', Except.error e' ∈ l ∧ collect l = .error e'

/-- Both calls return the same value, or both raise. -/
def SameOutcome {α : Type} (x y : Py α) : Prop := (∃ a, x = .ok a ∧ y = .ok a) ∨ (Raises x ∧ Raises y)

theorem SameOutcome.refl {α : Type} (x : Py α) : SameOutcome x x := by
  cases x with
  | error e => exact .inr ⟨⟨e, rfl⟩, ⟨e, rfl⟩⟩
  | ok a => exact .inl ⟨a, rfl, rfl⟩

theorem SameOutcome.symm {α : Type} {x y : Py α} (h : SameOutcome x y) : SameOutcome y x := by
  rcases h with ⟨a, h1, h2⟩ | ⟨h1, h2⟩
  · exact .inl ⟨a, h2, h1⟩
  · exact .inr ⟨h2, h1⟩

theorem SameOutcome.trans {α : Type} {x y z : Py α} (h : SameOutcome x y) (h' : SameOutcome y z) :
    SameOutcome x z := by
  rcases h with ⟨a, h1, h2⟩ | ⟨h1, ⟨e, h2⟩⟩
  · rcases h' with ⟨b, h3, h4⟩ | ⟨⟨e, h3⟩, h4⟩
    · rw [h2, Except.ok.injEq] at h3
      subst h3
      exact .inl ⟨a, h1, h4⟩
    · rw [h2] at h3; cases h3
  · rcases h' with ⟨b, h3, h4⟩ | ⟨h3, h4⟩
    · rw [h2] at h3; cases h3
    · exact .inr ⟨h1, h4⟩

theorem SameOutcome.bind {α β : Type} {x y : Py α} {f g : α → Py β} (h : SameOutcome x y)
    (hf : ∀ a, SameOutcome (f a) (g a)) : SameOutcome (x >>= f) (y >>= g) := by
  rcases h with ⟨a, rfl, rfl⟩ | ⟨⟨e, rfl⟩, ⟨e', rfl⟩⟩
  · exact hf a
  · exact .inr ⟨⟨e, rfl⟩, ⟨e', rfl⟩⟩

theorem serial_map (vs : List (ℕ × ℝ)) : serial (vs.map .ok) = .ok vs := by
  induction vs with
  | nil => rfl
  | cons v vs ih =>
    have : Flange.forEach id (vs.map (Except.ok : ℕ × ℝ → Py (ℕ × ℝ))) = .ok vs := ih
    simp only [serial, List.map_cons, Flange.forEach, id, ok_bind, this]

theorem serial_fair : Fair serial where
  all := fun vs => ⟨vs, serial_map vs, .refl _⟩
  err := fun l e h => by
    induction l with
    | nil => simp at h
    | cons a l ih =>
      cases a with
      | error e' => exact ⟨e', by simp, rfl⟩
      | ok v =>
        have : Except.error e ∈ l := by simpa using h
        obtain ⟨e', h1, h2⟩ := ih this
        have h2' : Flange.forEach id l = Except.error e' := h2
        refine ⟨e', by simp [h1], ?_⟩
        simp only [serial, Flange.forEach, id, ok_bind, h2', err_bind]

/-- A pool that returns the results in reverse order is fair. -/
def reversed : Collect := fun l => (serial l).map List.reverse

theorem reversed_fair : Fair reversed where
  all := fun vs => ⟨vs.reverse, by simp [reversed, serial_map, Except.map], vs.reverse_perm⟩
  err := fun l e h => by
    obtain ⟨e', h1, h2⟩ := serial_fair.err l e h
    exact ⟨e', h1, by simp [reversed, h2, Except.map]⟩

theorem results_cases {α : Type} (l : List (Py α)) :
    (∃ vs : List α, l = vs.map .ok) ∨ ∃ e, Except.error e ∈ l := by
  induction l with
  | nil => exact .inl ⟨[], rfl⟩
  | cons a l ih =>
    cases a with
    | error e => exact .inr ⟨e, by simp⟩
    | ok v =>
      rcases ih with ⟨vs, rfl⟩ | ⟨e, he⟩
      · exact .inl ⟨v :: vs, rfl⟩
      · exact .inr ⟨e, by simp [he]⟩

instance : Std.Total pairLE := ⟨fun a b => by
  unfold pairLE
  rcases lt_trichotomy a.1 b.1 with h | h | h
  · exact .inl (.inl h)
  · rcases le_total a.2 b.2 with h' | h'
    · exact .inl (.inr ⟨h, h'⟩)
    · exact .inr (.inr ⟨h.symm, h'⟩)
  · exact .inr (.inl h)⟩

instance : IsTrans (ℕ × ℝ) pairLE := ⟨fun a b c => by
  unfold pairLE
  rintro (h | ⟨h, h'⟩) (k | ⟨k, k'⟩)
  · exact .inl (h.trans k)
  · exact .inl (by omega)
  · exact .inl (by omega)
  · exact .inr ⟨h.trans k, h'.trans k'⟩⟩

instance : Std.Antisymm pairLE := ⟨fun a b => by
  unfold pairLE
  rintro (h | ⟨h, h'⟩) (k | ⟨k, k'⟩)
  · omega
  · omega
  · omega
  · exact Prod.ext h (le_antisymm h' k')⟩

open Classical in
/-- Sorting brings results with increasing indices back into order, whatever order they arrived in. -/
theorem sortResults_perm {p vs : List (ℕ × ℝ)} (hp : p.Perm vs) (hs : vs.Pairwise fun a b => a.1 < b.1) :
    sortResults p = vs := by
  have h1 : (sortResults p).Pairwise pairLE := List.pairwise_insertionSort pairLE p
  have h2 : vs.Pairwise pairLE := hs.imp fun h => .inl h
  have h3 : (sortResults p).Perm vs := (List.perm_insertionSort _ p).trans hp
  exact h3.eq_of_pairwise' h1 h2

/-! ### Grid -/

theorem linspace_length (lo hi : ℝ) : (linspace lo hi).length = 21 := by simp [linspace]

theorem linspace_mem {lo hi x : ℝ} : x ∈ linspace lo hi ↔ ∃ i : ℕ, i < 21 ∧ x = lo + i * ((hi - lo) / 20) := by
  simp only [linspace, List.mem_map, List.mem_range]
  constructor
  · rintro ⟨i, hi, rfl⟩; exact ⟨i, hi, rfl⟩
  · rintro ⟨i, hi, rfl⟩; exact ⟨i, hi, rfl⟩

theorem linspace_pos {lo hi x : ℝ} (h1 : 0 < lo) (h2 : 0 < hi) (h : x ∈ linspace lo hi) : 0 < x := by
  obtain ⟨i, hi', rfl⟩ := linspace_mem.mp h
  have h3 : (i : ℝ) ≤ 20 := by exact_mod_cast Nat.lt_succ_iff.mp hi'
  have h4 : (0 : ℝ) ≤ i := Nat.cast_nonneg i
  have : lo + i * ((hi - lo) / 20) = (lo * (20 - i) + hi * i) / 20 := by ring
  rw [this]
  rcases h3.lt_or_eq with h3 | h3
  · have := mul_pos h1 (sub_pos.mpr h3)
    have := mul_nonneg h2.le h4
    linarith
  · rw [h3]; linarith

theorem linspace_three {lo hi : ℝ} (hne : lo ≠ hi) : ∃ x ∈ linspace lo hi, ∃ y ∈ linspace lo hi, ∃ z ∈ linspace lo hi,
    x ≠ y ∧ x ≠ z ∧ y ≠ z := by
  refine ⟨lo, linspace_mem.mpr ⟨0, by norm_num, by simp⟩, (lo + hi) / 2,
    linspace_mem.mpr ⟨10, by norm_num, by push_cast; ring⟩, hi, linspace_mem.mpr ⟨20, by norm_num, by push_cast; ring⟩,
    ?_, hne, ?_⟩
  · intro h; apply hne; linarith
  · intro h; apply hne; linarith

/-! ### One refinement -/

section Refine

variable {collect : Collect} {task : ℕ → ℝ → Py (ℕ × ℝ)} {lo hi : ℝ}

/-- The fit and its vertex, from the velocities at the grid points. -/
noncomputable def fitAt (lo hi : ℝ) (vel : List ℝ) : Py Refined := do
  let fit ← cjCurveFit ((linspace lo hi).zip vel)
  let r ← pyDiv (-fit.b) (2 * fit.a)
  .ok ⟨fit, r⟩

/-- `vel` are the velocities the evaluations return at the grid points, in order. -/
def Velocities (task : ℕ → ℝ → Py (ℕ × ℝ)) (lo hi : ℝ) (vel : List ℝ) : Prop :=
  vel.length = 21 ∧ ∀ i r v, (linspace lo hi)[i]? = some r → vel[i]? = some v → task i r = .ok (i, v)

theorem tasks_eq (task : ℕ → ℝ → Py (ℕ × ℝ)) (lo hi : ℝ) :
    ((linspace lo hi).zipIdx.map fun x => task x.2 x.1) =
      (List.range 21).map fun i : ℕ => task i (lo + i * ((hi - lo) / 20)) := by
  apply List.ext_getElem?
  intro i
  simp only [linspace, List.getElem?_map, List.getElem?_zipIdx, Nat.zero_add]
  by_cases h : i < 21
  · simp [List.getElem?_range h]
  · simp [List.getElem?_eq_none (by simpa using h : (List.range 21).length ≤ i)]

theorem refine_cases (hc : Fair collect) (ht : ∀ n r x, task n r = .ok x → x.1 = n) :
    (∃ vel, Velocities task lo hi vel ∧ refine collect task lo hi = fitAt lo hi vel) ∨
    (Raises (refine collect task lo hi) ∧
      ∃ e, Except.error e ∈ ((linspace lo hi).zipIdx.map fun x => task x.2 x.1)) := by
  unfold refine
  rcases results_cases ((linspace lo hi).zipIdx.map fun x => task x.2 x.1) with ⟨vs, hvs⟩ | ⟨e, he⟩
  · left
    have hlen : vs.length = 21 := by
      have := congrArg List.length hvs
      simpa [linspace_length] using this.symm
    have hel : ∀ i (h : i < vs.length), task i (lo + i * ((hi - lo) / 20)) = .ok vs[i] := by
      intro i h
      have h1 := congrArg (fun l => l[i]?) hvs
      simp only [tasks_eq, List.getElem?_map] at h1
      rw [List.getElem?_range (by omega), List.getElem?_eq_getElem h] at h1
      simpa using h1
    have hidx : ∀ i (h : i < vs.length), (vs[i]).1 = i := fun i h => ht _ _ _ (hel i h)
    have hsort : vs.Pairwise fun a b => a.1 < b.1 := by
      rw [List.pairwise_iff_getElem]
      intro i j h1 h2 hij
      rw [hidx i h1, hidx j h2]
      exact hij
    obtain ⟨p, hp, hperm⟩ := hc.all vs
    refine ⟨vs.map (·.2), ⟨by simpa using hlen, ?_⟩, ?_⟩
    · intro i r v hr hv
      have hi' : i < vs.length := by
        have := (List.getElem?_eq_some_iff.mp hv).1
        simpa using this
      rw [List.getElem?_map, List.getElem?_eq_getElem hi'] at hv
      simp only [Option.map_some, Option.some.injEq] at hv
      rw [linspace, List.getElem?_map, List.getElem?_range (by omega)] at hr
      simp only [Option.map_some, Option.some.injEq] at hr
      rw [← hr, hel i hi', ← hv]
      congr 1
      exact Prod.ext (hidx i hi') rfl
    · simp only [hvs, hp, ok_bind, sortResults_perm hperm hsort]
      rfl
  · right
    obtain ⟨e', -, h2⟩ := hc.err _ _ he
    exact ⟨⟨e', by simp only [h2, err_bind]⟩, e, he⟩

theorem Velocities.unique {vel vel' : List ℝ} (h : Velocities task lo hi vel) (h' : Velocities task lo hi vel') :
    vel = vel' := by
  apply List.ext_getElem?
  intro i
  by_cases hi' : i < 21
  · have e1 : vel[i]? = some (vel[i]'(by rw [h.1]; exact hi')) := List.getElem?_eq_getElem _
    have e2 : vel'[i]? = some (vel'[i]'(by rw [h'.1]; exact hi')) := List.getElem?_eq_getElem _
    have e3 : (linspace lo hi)[i]? = some ((linspace lo hi)[i]'(by rw [linspace_length]; exact hi')) :=
      List.getElem?_eq_getElem _
    have a := h.2 _ _ _ e3 e1
    have b := h'.2 _ _ _ e3 e2
    rw [a, Except.ok.injEq, Prod.mk.injEq] at b
    rw [e1, e2, b.2]
  · rw [List.getElem?_eq_none (by rw [h.1]; omega), List.getElem?_eq_none (by rw [h'.1]; omega)]

theorem Velocities.no_error {vel : List ℝ} (h : Velocities task lo hi vel) {e : PyErr} :
    Except.error e ∉ ((linspace lo hi).zipIdx.map fun x => task x.2 x.1) := by
  rw [tasks_eq]
  intro hm
  simp only [List.mem_map, List.mem_range] at hm
  obtain ⟨i, hi', he⟩ := hm
  have e1 : vel[i]? = some (vel[i]'(by rw [h.1]; exact hi')) := List.getElem?_eq_getElem _
  have e3 : (linspace lo hi)[i]? = some (lo + i * ((hi - lo) / 20)) := by
    simp [linspace, List.getElem?_range hi']
  rw [h.2 _ _ _ e3 e1] at he
  cases he

theorem refine_eval (hc : Fair collect) (ht : ∀ n r x, task n r = .ok x → x.1 = n) {vel : List ℝ}
    (h : Velocities task lo hi vel) : refine collect task lo hi = fitAt lo hi vel := by
  rcases refine_cases (lo := lo) (hi := hi) hc ht with ⟨vel', h1, h2⟩ | ⟨-, e, he⟩
  · rw [h2, h1.unique h]
  · exact absurd he h.no_error

theorem refine_same {collect' : Collect} (hc : Fair collect) (hc' : Fair collect')
    (ht : ∀ n r x, task n r = .ok x → x.1 = n) :
    SameOutcome (refine collect task lo hi) (refine collect' task lo hi) := by
  rcases refine_cases (lo := lo) (hi := hi) hc ht with ⟨vel, h1, h2⟩ | ⟨h1, e, he⟩
  · rw [h2, refine_eval hc' ht h1]
    exact .refl _
  · rcases refine_cases (lo := lo) (hi := hi) hc' ht with ⟨vel, h3, -⟩ | ⟨h3, -⟩
    · exact absurd he h3.no_error
    · exact .inr ⟨h1, h3⟩

theorem refineLoop_same {collect' : Collect} (hc : Fair collect) (hc' : Fair collect')
    (ht : ∀ n r x, task n r = .ok x → x.1 = n) (delta : ℝ) (fuel : ℕ) (lo hi : ℝ) (last : Option Refined) (n : ℕ) :
    SameOutcome (refineLoop collect task delta fuel lo hi last n)
      (refineLoop collect' task delta fuel lo hi last n) := by
  induction fuel generalizing lo hi last n with
  | zero => exact .refl _
  | succ k ih =>
    simp only [refineLoop]
    split
    · exact (refine_same hc hc' ht).bind fun r => ih _ _ _ _
    · exact .refl _

/-- The loop never stops early: `delta` is 0. -/
theorem refineLoop_step (fuel : ℕ) (lo hi : ℝ) (last : Option Refined) (n : ℕ) :
    refineLoop collect task 0 (fuel + 1) lo hi last n = (do
      let r ← refine collect task lo hi
      refineLoop collect task 0 fuel (r.ratio * (1 - 0.001)) (r.ratio * (1 + 0.001)) (some r) (n + 1)) := by
  rw [refineLoop, if_pos (.inr (by norm_num))]

theorem refineLoop_four {x : Option Refined × ℕ} (h : refineLoop collect task 0 4 1.5 2 none 0 = .ok x) :
    ∃ r1 r2 r3 r4, refine collect task 1.5 2 = .ok r1 ∧
      refine collect task (r1.ratio * (1 - 0.001)) (r1.ratio * (1 + 0.001)) = .ok r2 ∧
      refine collect task (r2.ratio * (1 - 0.001)) (r2.ratio * (1 + 0.001)) = .ok r3 ∧
      refine collect task (r3.ratio * (1 - 0.001)) (r3.ratio * (1 + 0.001)) = .ok r4 ∧ x = (some r4, 4) := by
  simp only [refineLoop_step, bind_eq_ok] at h
  obtain ⟨r1, h1, r2, h2, r3, h3, r4, h4, h⟩ := h
  simp only [refineLoop, Except.ok.injEq] at h
  exact ⟨r1, r2, r3, r4, h1, h2, h3, h4, h.symm⟩

end Refine

end Pypbomb.SD
