/-
C140: more iterations or looser tolerances do not spoil an answer.
-/
import Verif.Props.Converged
import Verif.Props.SearchConverges
import Verif.Props.RoundedSD
import Verif.Props.RoundedSearch

namespace Pypbomb.SD

section Generic

variable {S O : Type} {body : S → Py S} {unc unc' : S → Prop} {count : S → ℕ} {out : S → Bool → O} {maxIter maxIter' : ℤ}

/-- A loop that did not stop at its limit does the same with a larger limit, or none. -/
theorem iterLoop_longer (hc : ∀ s s', body s = .ok s' → count s' = count s + 1) {fuel : ℕ} {s : S} {r : Py O}
    (hm : ((count s : ℕ) : ℤ) < maxIter) (hle : maxIter ≤ maxIter' ∨ maxIter' ≤ 0)
    (h : iterLoop body unc count out maxIter fuel s = some r) (hr : ∀ s', r ≠ .ok (out s' true)) :
    iterLoop body unc count out maxIter' fuel s = some r := by
  induction fuel generalizing s with
  | zero => simp [iterLoop] at h
  | succ n ih =>
    simp only [iterLoop] at h ⊢
    split at h
    · rename_i hu
      rw [if_pos hu]
      split at h
      · cases h; exact absurd rfl (hr s)
      · rename_i hne
        rw [if_neg (by push_cast at *; omega)]
        cases hb : body s with
        | error e => rw [hb] at h; exact h
        | ok s' =>
          rw [hb] at h
          have := hc s s' hb
          exact ih (by push_cast at *; omega) h
    · rename_i hu
      rw [if_neg hu]; exact h

/-- A loop with a weaker criterion to go on stops no later: without reaching the limit if the other one did, and with an exception only
if the other one raises it, too. -/
theorem iterLoop_looser (huu : ∀ s, unc' s → unc s) {fuel : ℕ} {s : S} :
    (∀ s1, iterLoop body unc count out maxIter fuel s = some (.ok (out s1 false)) → (∀ s2, out s1 false ≠ out s2 true) →
      ∃ s2, iterLoop body unc' count out maxIter fuel s = some (.ok (out s2 false))) ∧
    (∀ e, iterLoop body unc' count out maxIter fuel s = some (.error e) →
      iterLoop body unc count out maxIter fuel s = some (.error e)) := by
  induction fuel generalizing s with
  | zero => constructor <;> intro _ h <;> simp [iterLoop] at h
  | succ n ih =>
    constructor
    · intro s1 h hne
      simp only [iterLoop] at h ⊢
      by_cases hu' : unc' s
      · rw [if_pos hu']
        rw [if_pos (huu s hu')] at h
        split at h
        · simp only [Option.some.injEq, Except.ok.injEq] at h
          exact absurd h.symm (hne s)
        · rename_i hm
          rw [if_neg hm]
          cases hb : body s with
          | error e => rw [hb] at h; simp at h
          | ok s' => rw [hb] at h; exact ih.1 s1 h hne
      · rw [if_neg hu']; exact ⟨s, rfl⟩
    · intro e h
      simp only [iterLoop] at h ⊢
      split at h
      · rename_i hu'
        rw [if_pos (huu s hu')]
        split at h
        · simp at h
        · rename_i hm
          rw [if_neg hm]
          cases hb : body s with
          | error e => rw [hb] at h; exact h
          | ok s' => rw [hb] at h; exact ih.2 e h
      · simp at h

end Generic

/-- Loosening a positive tolerance does not turn convergence into non-convergence, whatever the sign of the quantity. -/
theorem looser_step {tol tol' d x : ℝ} (h0 : 0 < tol) (hle : tol ≤ tol') (h : tol' * x < |d|) : tol * x < |d| := by
  rcases le_or_gt 0 x with hx | hx
  · exact (mul_le_mul_of_nonneg_right hle hx).trans_lt h
  · exact (mul_neg_of_pos_of_neg h0 hx).trans_le (abs_nonneg d)

section calls

variable {ct : Cantera} {working initial post : ct.Gas} {tolT tolT' tolV tolV' ratio u : ℝ} {maxIter maxIter' : ℤ} {fuel : ℕ}

/-- C140: an answer of `cj_state` without a warning, or an exception, stays the same with any larger iteration limit (and with a limit
that is not positive, i.e. none). -/
theorem C140_cj_state_iterations {r : Py (CJOut ct)} (hm : 1 ≤ maxIter) (hle : maxIter ≤ maxIter' ∨ maxIter' ≤ 0)
    (h : cjState ct working initial tolT tolV ratio maxIter fuel = some r) (hr : ∀ o, r = .ok o → o.warned = false) :
    cjState ct working initial tolT tolV ratio maxIter' fuel = some r := by
  unfold cjState at h ⊢
  cases hs : cjStart ct working initial ratio with
  | error e => rw [hs] at h; exact h
  | ok x =>
    obtain ⟨density, s⟩ := x
    rw [hs] at h
    obtain ⟨-, -, -, -, -, -, -, -, hc⟩ := cjStart_ok hs
    simp only [cjLoop_eq] at h ⊢
    refine iterLoop_longer cjBody_count (by rw [hc]; push_cast; omega) hle h fun s' e => ?_
    have := hr _ e
    simp at this

/-- C140: loosening the tolerances of `cj_state` brings up no warning and no exception that was not there before. -/
theorem C140_cj_state_tolerances (t0 : 0 < tolT) (v0 : 0 < tolV) (ht : tolT ≤ tolT') (hv : tolV ≤ tolV') :
    (∀ o, cjState ct working initial tolT tolV ratio maxIter fuel = some (.ok o) → o.warned = false →
      ∃ o', cjState ct working initial tolT' tolV' ratio maxIter fuel = some (.ok o') ∧ o'.warned = false) ∧
    (∀ e, cjState ct working initial tolT' tolV' ratio maxIter fuel = some (.error e) →
      cjState ct working initial tolT tolV ratio maxIter fuel = some (.error e)) := by
  unfold cjState
  cases hs : cjStart ct working initial ratio with
  | error e =>
    simp only
    refine ⟨fun o h => ?_, fun e h => h⟩
    simp at h
  | ok x =>
    obtain ⟨density, s⟩ := x
    simp only [cjLoop_eq]
    have huu : ∀ s : CJ ct, s.unconverged tolT' tolV' → s.unconverged tolT tolV := by
      intro s hs
      exact hs.imp (looser_step t0 ht) (looser_step v0 hv)
    refine ⟨fun o h hw => ?_, (iterLoop_looser huu).2⟩
    obtain ⟨n, s', -, -, hcase⟩ := iterLoop_ok cjBody_count h
    rcases hcase with ⟨rfl, -⟩ | ⟨rfl, -⟩
    · simp at hw
    · obtain ⟨s2, h2⟩ := (iterLoop_looser huu).1 s' h (by intro s2; simp)
      exact ⟨_, h2, rfl⟩

/-- C140: the same for `get_eq_state`. -/
theorem C140_eq_state_iterations {r : Py (RSOut ct)} (hm : 1 ≤ maxIter) (hle : maxIter ≤ maxIter' ∨ maxIter' ≤ 0)
    (h : getEqState ct u post working tolT tolV maxIter fuel = some r) (hr : ∀ o, r = .ok o → o.warned = false) :
    getEqState ct u post working tolT tolV maxIter' fuel = some r := by
  unfold getEqState at h ⊢
  cases hs : rsStart ct post working with
  | error e => rw [hs] at h; exact h
  | ok x =>
    obtain ⟨pv, s⟩ := x
    rw [hs] at h
    obtain ⟨-, -, -, -, -, -, -, -, hc⟩ := rsStart_ok hs
    simp only [rsLoop_eq] at h ⊢
    refine iterLoop_longer rsBody_count (by rw [hc]; push_cast; omega) hle h fun s' e => ?_
    have := hr _ e
    simp at this

/-- C140: the same for `get_eq_state`. -/
theorem C140_eq_state_tolerances (t0 : 0 < tolT) (v0 : 0 < tolV) (ht : tolT ≤ tolT') (hv : tolV ≤ tolV') :
    (∀ o, getEqState ct u post working tolT tolV maxIter fuel = some (.ok o) → o.warned = false →
      ∃ o', getEqState ct u post working tolT' tolV' maxIter fuel = some (.ok o') ∧ o'.warned = false) ∧
    (∀ e, getEqState ct u post working tolT' tolV' maxIter fuel = some (.error e) →
      getEqState ct u post working tolT tolV maxIter fuel = some (.error e)) := by
  unfold getEqState
  cases hs : rsStart ct post working with
  | error e =>
    simp only
    refine ⟨fun o h => ?_, fun e h => h⟩
    simp at h
  | ok x =>
    obtain ⟨pv, s⟩ := x
    simp only [rsLoop_eq]
    have huu : ∀ s : RS ct, s.unconverged tolT' tolV' → s.unconverged tolT tolV := by
      intro s hs
      exact hs.imp (looser_step t0 ht) (looser_step v0 hv)
    refine ⟨fun o h hw => ?_, (iterLoop_looser huu).2⟩
    obtain ⟨n, s', -, -, hcase⟩ := iterLoop_ok rsBody_count h
    rcases hcase with ⟨rfl, -⟩ | ⟨rfl, -⟩
    · simp at hw
    · obtain ⟨s2, h2⟩ := (iterLoop_looser huu).1 s' h (by intro s2; simp)
      exact ⟨_, h2, rfl⟩

/-- A run of `cj_state` with its defaults that meets the hypotheses: the answer is the same with a million iterations allowed, and there is
one with tolerances of a percent. -/
example : ∃ out, cjState (perfect 1 (7 / 2) (84 / 5)) (PGas.mk 1 1 false) (PGas.mk 1 1 false) 1e-4 1e-4 (5 / 3) 500 500 =
      some (.ok out) ∧ out.warned = false ∧
    cjState (perfect 1 (7 / 2) (84 / 5)) (PGas.mk 1 1 false) (PGas.mk 1 1 false) 1e-4 1e-4 (5 / 3) 1000000 500 =
      some (.ok out) ∧
    ∃ o', cjState (perfect 1 (7 / 2) (84 / 5)) (PGas.mk 1 1 false) (PGas.mk 1 1 false) 0.01 0.01 (5 / 3) 500 500 =
      some (.ok o') ∧ o'.warned = false := by
  obtain ⟨out, h, hw⟩ := cj_unwarned_run
  exact ⟨out, h, hw, C140_cj_state_iterations (by norm_num) (by norm_num) h (by rintro _ ⟨⟩; exact hw),
    (C140_cj_state_tolerances (by norm_num) (by norm_num) (by norm_num) (by norm_num)).1 out h hw⟩

/-- The same for `get_eq_state`. -/
example : ∃ out, getEqState (tvGas exP exH) (8000 / 9) (tvMk exP exH 2100 1.8) (tvMk exP exH exTg 9) 1e-4 1e-4 500 500 =
      some (.ok out) ∧ out.warned = false ∧
    getEqState (tvGas exP exH) (8000 / 9) (tvMk exP exH 2100 1.8) (tvMk exP exH exTg 9) 1e-4 1e-4 0 500 = some (.ok out) ∧
    ∃ o', getEqState (tvGas exP exH) (8000 / 9) (tvMk exP exH 2100 1.8) (tvMk exP exH exTg 9) 0.01 0.01 500 500 =
      some (.ok o') ∧ o'.warned = false := by
  obtain ⟨-, out, h, hw, -⟩ := rs_unwarned_run
  exact ⟨out, h, hw, C140_eq_state_iterations (by norm_num) (by norm_num) h (by rintro _ ⟨⟩; exact hw),
    (C140_eq_state_tolerances (by norm_num) (by norm_num) (by norm_num) (by norm_num)).1 out h hw⟩

end calls

/-! ### In floating point -/

section float

variable {ct : Cantera} {working initial post : ct.Gas} {tolT tolT' tolV tolV' ratio u : ℝ} {maxIter maxIter' : ℤ} {fuel : ℕ}
  {fp : FP} {w : ℝ} {κ : ℕ}

/-- C140: an answer of `cj_state` without a warning stays the same with any larger iteration limit, whatever the rounding. -/
theorem C140_cj_state_iterations_float {r : Py (CJOut ct)} (hm : 1 ≤ maxIter) (hle : maxIter ≤ maxIter' ∨ maxIter' ≤ 0)
    (h : cjStateR fp ct working initial tolT tolV ratio maxIter fuel = some r) (hr : ∀ o, r = .ok o → o.warned = false) :
    cjStateR fp ct working initial tolT tolV ratio maxIter' fuel = some r := by
  unfold cjStateR at h ⊢
  split at h
  · exact h
  · rename_i hs
    simp only [bind_eq_ok] at hs
    obtain ⟨_, -, _, -, hs⟩ := hs
    cases hs
    simp only [cjLoopR_eq] at h ⊢
    refine iterLoop_longer (fun s s' h => (cjBodyR_ok h).choose_spec.choose_spec.2.2.2.2) (by push_cast; omega) hle h
      fun s' e => ?_
    have := hr _ e
    simp at this

/-- C140: the same for `get_eq_state`. -/
theorem C140_eq_state_iterations_float {r : Py (RSOut ct)} (hm : 1 ≤ maxIter) (hle : maxIter ≤ maxIter' ∨ maxIter' ≤ 0)
    (h : getEqStateR fp ct u post working tolT tolV maxIter fuel = some r) (hr : ∀ o, r = .ok o → o.warned = false) :
    getEqStateR fp ct u post working tolT tolV maxIter' fuel = some r := by
  unfold getEqStateR at h ⊢
  split at h
  · exact h
  · rename_i hs
    simp only [bind_eq_ok] at hs
    obtain ⟨_, -, _, -, _, -, hs⟩ := hs
    cases hs
    simp only [rsLoopR_eq] at h ⊢
    refine iterLoop_longer (fun s s' h => ?_) (by push_cast; omega) hle h fun s' e => ?_
    · obtain ⟨_, _, _, -, -, -, -, -, -, -, hc⟩ := rsBodyR_ok (ρ' := s'.1) (s' := s'.2) h
      exact hc
    · have := hr _ e
      simp at this

/-- Loosening a positive tolerance does not turn convergence into non-convergence, in floating point either. -/
theorem looser_step_float (H : fp.Accurate w κ) (M : fp.Monotone) {tol tol' d x : ℝ} (h0 : 0 < tol) (hle : tol ≤ tol')
    (h : fp.rnd (tol' * x) < |d|) : fp.rnd (tol * x) < |d| := by
  rcases le_or_gt 0 x with hx | hx
  · exact (M.mono _ _ (mul_le_mul_of_nonneg_right hle hx)).trans_lt h
  · have hn := mul_neg_of_pos_of_neg h0 hx
    have := H.rnd (tol * x)
    rw [abs_of_neg hn, abs_le] at this
    have h1 := H.lt_one
    have : fp.rnd (tol * x) < 0 := by nlinarith [this.2]
    exact this.trans_le (abs_nonneg d)

/-- C140: loosening the tolerances of `cj_state` brings up no warning and no exception, in floating point. -/
theorem C140_cj_state_tolerances_float (H : fp.Accurate w κ) (M : fp.Monotone) (t0 : 0 < tolT) (v0 : 0 < tolV)
    (ht : tolT ≤ tolT') (hv : tolV ≤ tolV') :
    (∀ o, cjStateR fp ct working initial tolT tolV ratio maxIter fuel = some (.ok o) → o.warned = false →
      ∃ o', cjStateR fp ct working initial tolT' tolV' ratio maxIter fuel = some (.ok o') ∧ o'.warned = false) ∧
    (∀ e, cjStateR fp ct working initial tolT' tolV' ratio maxIter fuel = some (.error e) →
      cjStateR fp ct working initial tolT tolV ratio maxIter fuel = some (.error e)) := by
  unfold cjStateR
  split
  · refine ⟨fun o h => ?_, fun e h => h⟩
    simp at h
  · simp only [cjLoopR_eq]
    have huu : ∀ s : CJ ct, s.unconvergedR fp tolT' tolV' → s.unconvergedR fp tolT tolV := by
      intro s hs
      exact hs.imp (looser_step_float H M t0 ht) (looser_step_float H M v0 hv)
    refine ⟨fun o h hw => ?_, (iterLoop_looser huu).2⟩
    obtain ⟨n, s', -, -, hcase⟩ := iterLoop_ok (fun s s' h => (cjBodyR_ok h).choose_spec.choose_spec.2.2.2.2) h
    rcases hcase with ⟨rfl, -⟩ | ⟨rfl, -⟩
    · simp at hw
    · obtain ⟨s2, h2⟩ := (iterLoop_looser huu).1 s' h (by intro s2; simp)
      exact ⟨_, h2, rfl⟩

/-- C140: the same for `get_eq_state`. -/
theorem C140_eq_state_tolerances_float (H : fp.Accurate w κ) (M : fp.Monotone) (t0 : 0 < tolT) (v0 : 0 < tolV)
    (ht : tolT ≤ tolT') (hv : tolV ≤ tolV') :
    (∀ o, getEqStateR fp ct u post working tolT tolV maxIter fuel = some (.ok o) → o.warned = false →
      ∃ o', getEqStateR fp ct u post working tolT' tolV' maxIter fuel = some (.ok o') ∧ o'.warned = false) ∧
    (∀ e, getEqStateR fp ct u post working tolT' tolV' maxIter fuel = some (.error e) →
      getEqStateR fp ct u post working tolT tolV maxIter fuel = some (.error e)) := by
  unfold getEqStateR
  split
  · refine ⟨fun o h => ?_, fun e h => h⟩
    simp at h
  · simp only [rsLoopR_eq]
    have huu : ∀ s : ℝ × RS ct, s.2.unconvergedR fp tolT' tolV' → s.2.unconvergedR fp tolT tolV := by
      intro s hs
      exact hs.imp (looser_step_float H M t0 ht) (looser_step_float H M v0 hv)
    refine ⟨fun o h hw => ?_, (iterLoop_looser huu).2⟩
    obtain ⟨n, s', -, -, hcase⟩ := iterLoop_ok (fun s s' h => by
      obtain ⟨_, _, _, -, -, -, -, -, -, -, hc⟩ := rsBodyR_ok (ρ' := s'.1) (s' := s'.2) h
      exact hc) h
    rcases hcase with ⟨rfl, -⟩ | ⟨rfl, -⟩
    · simp at hw
    · obtain ⟨s2, h2⟩ := (iterLoop_looser huu).1 s' h (by intro s2; simp)
      exact ⟨_, h2, rfl⟩

/-- Double precision is such an arithmetic, and so is exact arithmetic, with which there is a run that meets the hypotheses. -/
example : (∃ κ, FP.double.Accurate ((1 / 2) ^ 53) κ ∧ FP.double.Monotone) ∧ FP.exact.Accurate 0 0 ∧ FP.exact.Monotone ∧
    ∃ out, cjStateR FP.exact (perfect 1 (7 / 2) (84 / 5)) (PGas.mk 1 1 false) (PGas.mk 1 1 false) 1e-4 1e-4 (5 / 3) 500 500 =
        some (.ok out) ∧ out.warned = false ∧
      cjStateR FP.exact (perfect 1 (7 / 2) (84 / 5)) (PGas.mk 1 1 false) (PGas.mk 1 1 false) 1e-4 1e-4 (5 / 3) 1000000 500 =
        some (.ok out) := by
  refine ⟨⟨1, FP.double_accurate, FP.double_monotone⟩, exact_arithmetic.1, exact_arithmetic.2.1, ?_⟩
  obtain ⟨out, h, hw⟩ := cj_unwarned_run
  replace h := (C124_exact_cj (ct := perfect 1 (7 / 2) (84 / 5)) _ _ _ _ _ _ _).trans h
  exact ⟨out, h, hw, C140_cj_state_iterations_float (by norm_num) (by norm_num) h (by rintro _ ⟨⟩; exact hw)⟩

end float

end Pypbomb.SD

namespace Pypbomb.Tube
open Quantity

variable {shock : Quantity → Py Shock} {dlfOf : Quantity → Py ℝ} {reg : Registry} {max : Quantity} {tol tol' m : ℝ}
  {maxIter maxIter' : ℤ} {state : String} {f f' : Found} {useDlf : Bool}

theorem search_longer {n n' : ℕ} (hn : n ≤ n') : ∀ {p : Quantity} {s : Shock} {d e : ℝ} {k : ℕ} {ev : List Quantity} {r : Py Found},
    search shock dlfOf useDlf state m tol n p s d e k ev = r → (∀ f, r = .ok f → f.updates < k + n ∨ |f.error| ≤ tol) →
    search shock dlfOf useDlf state m tol n' p s d e k ev = r := by
  induction n generalizing n' with
  | zero =>
    intro p s d e k ev r h hr
    rw [search] at h
    subst h
    have := hr _ rfl
    simp only [lt_self_iff_false, add_zero, false_or] at this
    cases n' with
    | zero => rfl
    | succ n' => rw [search, if_neg (not_lt.mpr this)]
  | succ n ih =>
    intro p s d e k ev r h hr
    obtain ⟨n', rfl⟩ : ∃ j, n' = j + 1 := ⟨n' - 1, by omega⟩
    rw [search] at h ⊢
    split at h
    · rename_i ht
      rw [if_pos ht]
      cases h1 : scale m p with
      | error x => rw [h1] at h; exact h
      | ok p1 =>
        cases h2 : p1.divNum (d * s.reflectedP) with
        | error x => simp only [h1, ok_bind, h2] at h ⊢; exact h
        | ok p2 =>
          cases h3 : shock p2 with
          | error x => simp only [h1, ok_bind, h2, h3] at h ⊢; exact h
          | ok s2 =>
            cases h4 : loopDlf dlfOf useDlf s2.cjSpeed with
            | error x => simp only [h1, ok_bind, h2, h3, h4] at h ⊢; exact h
            | ok d2 =>
              simp only [h1, ok_bind, h2, h3, h4] at h ⊢
              split at h
              · rename_i h0; rw [if_pos h0]; exact h
              · rename_i h0
                rw [if_neg h0]
                refine ih (by omega) h fun f hf => ?_
                rcases hr f hf with h | h
                · exact .inl (by omega)
                · exact .inr h
    · rename_i ht
      rw [if_neg ht]; exact h

/-- C140: an answer of `calculate_max_initial_pressure` within the tolerance, or found before the iterations ran out, or an exception,
stays the same with any larger iteration limit. -/
theorem C140_search_iterations {r : Py Found} (hle : maxIter ≤ maxIter') (h0 : 0 ≤ maxIter)
    (h : maxInitialPressure reg shock dlfOf max useDlf tol maxIter state = r)
    (hr : ∀ f, r = .ok f → (f.updates : ℤ) < maxIter ∨ |f.error| ≤ |tol|) :
    maxInitialPressure reg shock dlfOf max useDlf tol maxIter' state = r := by
  unfold maxInitialPressure at h ⊢
  split at h
  · rename_i hs; rw [if_pos hs]; exact h
  · rename_i hs
    rw [if_neg hs]
    cases h1 : shock ⟨1, PUnit.atm, reg.id⟩ with
    | error x => simp only [h1] at h ⊢; exact h
    | ok s =>
      cases h2 : dlfOf s.cjSpeed with
      | error x => simp only [h1, ok_bind, h2] at h ⊢; exact h
      | ok d =>
        simp only [h1, ok_bind, h2] at h ⊢
        split at h
        · rename_i hm; rw [if_pos hm]; exact h
        · rename_i hm
          rw [if_neg hm]
          refine search_longer (by omega) h fun f hf => ?_
          rcases hr f hf with h | h
          · exact .inl (by omega)
          · exact .inr h

theorem search_tighter {n : ℕ} (ht : tol' ≤ tol) : ∀ {p : Quantity} {s : Shock} {d e : ℝ} {k : ℕ} {ev : List Quantity},
    (∀ f', search shock dlfOf useDlf state m tol' n p s d e k ev = .ok f' →
      ∃ f, search shock dlfOf useDlf state m tol n p s d e k ev = .ok f ∧ f.updates ≤ f'.updates ∧
        f.evaluated <+: f'.evaluated) := by
  have pre : ∀ {n : ℕ} {p : Quantity} {s : Shock} {d e : ℝ} {k : ℕ} {ev : List Quantity} {f' : Found},
      search shock dlfOf useDlf state m tol' n p s d e k ev = .ok f' → k ≤ f'.updates ∧ ev <+: f'.evaluated := by
    intro n
    induction n with
    | zero => intro p s d e k ev f' h; rw [search, Except.ok.injEq] at h; subst h; exact ⟨le_rfl, List.prefix_rfl⟩
    | succ n ih =>
      intro p s d e k ev f' h
      rw [search] at h
      split at h
      · simp only [bind_eq_ok] at h
        obtain ⟨p1, h1, p2, h2, s2, h3, d2, h4, h⟩ := h
        split at h
        · simp at h
        · obtain ⟨a, b⟩ := ih h
          exact ⟨by omega, (List.prefix_append ev [p2]).trans b⟩
      · rw [Except.ok.injEq] at h; subst h; exact ⟨le_rfl, List.prefix_rfl⟩
  induction n with
  | zero =>
    intro p s d e k ev f' h
    exact ⟨f', h, le_rfl, List.prefix_rfl⟩
  | succ n ih =>
    intro p s d e k ev f' h
    by_cases hc : tol < |e|
    · have hc' : tol' < |e| := ht.trans_lt hc
      rw [search, if_pos hc'] at h
      rw [search, if_pos hc]
      simp only [bind_eq_ok] at h
      obtain ⟨p1, h1, p2, h2, s2, h3, d2, h4, h⟩ := h
      simp only [h1, ok_bind, h2, h3, h4]
      split at h
      · simp at h
      · rename_i h0
        rw [if_neg h0]
        exact ih f' h
    · rw [search, if_neg hc]
      exact ⟨_, rfl, pre h⟩

/-- C140: with a tighter tolerance `calculate_max_initial_pressure` goes through the same initial pressures and possibly on; a looser one
brings up no exception. -/
theorem C140_search_tolerance (ht : |tol'| ≤ |tol|)
    (h : maxInitialPressure reg shock dlfOf max useDlf tol' maxIter state = .ok f') :
    ∃ f, maxInitialPressure reg shock dlfOf max useDlf tol maxIter state = .ok f ∧ f.updates ≤ f'.updates ∧
      f.evaluated <+: f'.evaluated := by
  unfold maxInitialPressure at h ⊢
  split at h
  · simp at h
  · rename_i hs
    rw [if_neg hs]
    simp only [bind_eq_ok] at h
    obtain ⟨s, h1, d, h2, h⟩ := h
    simp only [h1, ok_bind, h2]
    split at h
    · simp at h
    · rename_i hm
      rw [if_neg hm]
      exact search_tighter ht f' h

/-! ### In floating point -/

variable {fp : FP}

theorem searchR_longer {n n' : ℕ} (hn : n ≤ n') : ∀ {p : Quantity} {s : Shock} {d e : ℝ} {k : ℕ} {ev : List Quantity} {r : Py Found},
    searchR fp shock dlfOf useDlf state m tol n p s d e k ev = r → (∀ f, r = .ok f → f.updates < k + n ∨ |f.error| ≤ tol) →
    searchR fp shock dlfOf useDlf state m tol n' p s d e k ev = r := by
  induction n generalizing n' with
  | zero =>
    intro p s d e k ev r h hr
    rw [searchR] at h
    subst h
    have := hr _ rfl
    simp only [lt_self_iff_false, add_zero, false_or] at this
    cases n' with
    | zero => rfl
    | succ n' => rw [searchR, if_neg (not_lt.mpr this)]
  | succ n ih =>
    intro p s d e k ev r h hr
    obtain ⟨n', rfl⟩ : ∃ j, n' = j + 1 := ⟨n' - 1, by omega⟩
    rw [searchR] at h ⊢
    split at h
    · rename_i ht
      rw [if_pos ht]
      cases h1 : scaleR fp m p with
      | error x => rw [h1] at h; exact h
      | ok p1 =>
        cases h2 : p1.divNumR fp (fp.rnd (d * s.reflectedP)) with
        | error x => simp only [h1, ok_bind, h2] at h ⊢; exact h
        | ok p2 =>
          cases h3 : shock p2 with
          | error x => simp only [h1, ok_bind, h2, h3] at h ⊢; exact h
          | ok s2 =>
            cases h4 : loopDlf dlfOf useDlf s2.cjSpeed with
            | error x => simp only [h1, ok_bind, h2, h3, h4] at h ⊢; exact h
            | ok d2 =>
              simp only [h1, ok_bind, h2, h3, h4] at h ⊢
              split at h
              · rename_i h0; rw [if_pos h0]; exact h
              · rename_i h0
                rw [if_neg h0]
                refine ih (by omega) h fun f hf => ?_
                rcases hr f hf with h | h
                · exact .inl (by omega)
                · exact .inr h
    · rename_i ht
      rw [if_neg ht]; exact h

/-- C140: an answer of `calculate_max_initial_pressure` within the tolerance, or found before the iterations ran out, or an exception,
stays the same with any larger iteration limit, whatever the rounding. -/
theorem C140_search_iterations_float {r : Py Found} (hle : maxIter ≤ maxIter') (h0 : 0 ≤ maxIter)
    (h : maxInitialPressureR fp reg shock dlfOf max useDlf tol maxIter state = r)
    (hr : ∀ f, r = .ok f → (f.updates : ℤ) < maxIter ∨ |f.error| ≤ |tol|) :
    maxInitialPressureR fp reg shock dlfOf max useDlf tol maxIter' state = r := by
  unfold maxInitialPressureR at h ⊢
  split at h
  · rename_i hs; rw [if_pos hs]; exact h
  · rename_i hs
    rw [if_neg hs]
    cases h1 : shock ⟨1, PUnit.atm, reg.id⟩ with
    | error x => simp only [h1] at h ⊢; exact h
    | ok s =>
      cases h2 : dlfOf s.cjSpeed with
      | error x => simp only [h1, ok_bind, h2] at h ⊢; exact h
      | ok d =>
        simp only [h1, ok_bind, h2] at h ⊢
        split at h
        · rename_i hm; rw [if_pos hm]; exact h
        · rename_i hm
          rw [if_neg hm]
          refine searchR_longer (by omega) h fun f hf => ?_
          rcases hr f hf with h | h
          · exact .inl (by omega)
          · exact .inr h

theorem searchR_tighter {n : ℕ} (ht : tol' ≤ tol) : ∀ {p : Quantity} {s : Shock} {d e : ℝ} {k : ℕ} {ev : List Quantity},
    (∀ f', searchR fp shock dlfOf useDlf state m tol' n p s d e k ev = .ok f' →
      ∃ f, searchR fp shock dlfOf useDlf state m tol n p s d e k ev = .ok f ∧ f.updates ≤ f'.updates ∧
        f.evaluated <+: f'.evaluated) := by
  have pre : ∀ {n : ℕ} {p : Quantity} {s : Shock} {d e : ℝ} {k : ℕ} {ev : List Quantity} {f' : Found},
      searchR fp shock dlfOf useDlf state m tol' n p s d e k ev = .ok f' → k ≤ f'.updates ∧ ev <+: f'.evaluated := by
    intro n
    induction n with
    | zero => intro p s d e k ev f' h; rw [searchR, Except.ok.injEq] at h; subst h; exact ⟨le_rfl, List.prefix_rfl⟩
    | succ n ih =>
      intro p s d e k ev f' h
      rw [searchR] at h
      split at h
      · simp only [bind_eq_ok] at h
        obtain ⟨p1, h1, p2, h2, s2, h3, d2, h4, h⟩ := h
        split at h
        · simp at h
        · obtain ⟨a, b⟩ := ih h
          exact ⟨by omega, (List.prefix_append ev [p2]).trans b⟩
      · rw [Except.ok.injEq] at h; subst h; exact ⟨le_rfl, List.prefix_rfl⟩
  induction n with
  | zero =>
    intro p s d e k ev f' h
    exact ⟨f', h, le_rfl, List.prefix_rfl⟩
  | succ n ih =>
    intro p s d e k ev f' h
    by_cases hc : tol < |e|
    · have hc' : tol' < |e| := ht.trans_lt hc
      rw [searchR, if_pos hc'] at h
      rw [searchR, if_pos hc]
      simp only [bind_eq_ok] at h
      obtain ⟨p1, h1, p2, h2, s2, h3, d2, h4, h⟩ := h
      simp only [h1, ok_bind, h2, h3, h4]
      split at h
      · simp at h
      · rename_i h0
        rw [if_neg h0]
        exact ih f' h
    · rw [searchR, if_neg hc]
      exact ⟨_, rfl, pre h⟩

/-- C140: with a tighter tolerance `calculate_max_initial_pressure` goes through the same initial pressures and possibly on; a looser one
brings up no exception. In floating point. -/
theorem C140_search_tolerance_float (ht : |tol'| ≤ |tol|)
    (h : maxInitialPressureR fp reg shock dlfOf max useDlf tol' maxIter state = .ok f') :
    ∃ f, maxInitialPressureR fp reg shock dlfOf max useDlf tol maxIter state = .ok f ∧ f.updates ≤ f'.updates ∧
      f.evaluated <+: f'.evaluated := by
  unfold maxInitialPressureR at h ⊢
  split at h
  · simp at h
  · rename_i hs
    rw [if_neg hs]
    simp only [bind_eq_ok] at h
    obtain ⟨s, h1, d, h2, h⟩ := h
    simp only [h1, ok_bind, h2]
    split at h
    · simp at h
    · rename_i hm
      rw [if_neg hm]
      exact searchR_tighter ht f' h

/-- A search that meets the hypotheses: found in at most seven updates, so the same with any limit from 500 on, and there is an answer
with a looser tolerance after at most as many updates. -/
example (reg : Registry) : ∃ f, maxInitialPressure reg powerShock (fun _ => .ok 2)
      ⟨2 * (40 * (202650 : ℝ) ^ (1.05 : ℝ)), PUnit.pascal, 0⟩ true 0.0001 500 "reflected" = .ok f ∧ 1 ≤ f.updates ∧
    maxInitialPressure reg powerShock (fun _ => .ok 2)
      ⟨2 * (40 * (202650 : ℝ) ^ (1.05 : ℝ)), PUnit.pascal, 0⟩ true 0.0001 1000000 "reflected" = .ok f ∧
    ∃ g, maxInitialPressure reg powerShock (fun _ => .ok 2)
      ⟨2 * (40 * (202650 : ℝ) ^ (1.05 : ℝ)), PUnit.pascal, 0⟩ true 0.01 500 "reflected" = .ok g ∧ g.updates ≤ f.updates := by
  obtain ⟨f, P, h, -, h1, h7, -⟩ := power_converges reg
  obtain ⟨g, hg, hu, -⟩ := C140_search_tolerance (tol := 0.01) (by norm_num [abs_of_pos]) h
  exact ⟨f, h, h1, C140_search_iterations (by norm_num) (by norm_num) h (by rintro _ ⟨⟩; exact .inl (by omega)), g, hg, hu⟩

end Pypbomb.Tube
