/-
Lemmas about the two iterations of sd.py.
-/
import Mathlib.Tactic.Ring
import Mathlib.Tactic.Linarith
import Mathlib.Tactic.FieldSimp
import Mathlib.Tactic.Positivity
import Verif.Model.SD

namespace Pypbomb.SD

variable {ct : Cantera}

/-! ### Generic bounded iteration -/

open Classical in
/-- The common shape of `cjLoop` and `rsLoop`. -/
noncomputable def iterLoop {S O : Type} (body : S → Py S) (unc : S → Prop) (count : S → ℕ)
    (out : S → Bool → O) (maxIter : ℤ) : ℕ → S → Option (Py O)
  | 0, _ => none
  | fuel + 1, s =>
    if unc s then
      if ((count s + 1 : ℕ) : ℤ) = maxIter then some (.ok (out s true))
      else
        match body s with
        | .error e => some (.error e)
        | .ok s' => iterLoop body unc count out maxIter fuel s'
    else some (.ok (out s false))

theorem cjLoop_eq (initial : ct.Gas) (density tolT tolV : ℝ) (maxIter : ℤ) (fuel : ℕ) (s : CJ ct) :
    cjLoop ct initial density tolT tolV maxIter fuel s =
      iterLoop (cjBody ct initial density) (CJ.unconverged tolT tolV) CJ.count
        (fun s w => ⟨s.gas, s.v, w⟩) maxIter fuel s := by
  induction fuel generalizing s with
  | zero => rfl
  | succ n ih =>
    simp only [cjLoop, iterLoop]
    split
    · split
      · rfl
      · cases cjBody ct initial density s with
        | error e => rfl
        | ok s' => exact ih s'
    · rfl

theorem rsLoop_eq (speed : ℝ) (post : ct.Gas) (pv tolT tolV : ℝ) (maxIter : ℤ) (fuel : ℕ) (s : RS ct) :
    rsLoop ct speed post pv tolT tolV maxIter fuel s =
      iterLoop (rsBody ct speed post pv) (RS.unconverged tolT tolV) RS.count
        (fun s w => ⟨s.gas, w⟩) maxIter fuel s := by
  induction fuel generalizing s with
  | zero => rfl
  | succ n ih =>
    simp only [rsLoop, iterLoop]
    split
    · split
      · rfl
      · cases rsBody ct speed post pv s with
        | error e => rfl
        | ok s' => exact ih s'
    · rfl

/-- `s` is reached from `s0` after `n` updates, every earlier state being unconverged. -/
inductive Reached {S : Type} (body : S → Py S) (unc : S → Prop) (s0 : S) : ℕ → S → Prop
  | start : Reached body unc s0 0 s0
  | step {n : ℕ} {s s' : S} : Reached body unc s0 n s → unc s → body s = .ok s' →
      Reached body unc s0 (n + 1) s'

theorem Reached.cons {S : Type} {body : S → Py S} {unc : S → Prop} {s0 s1 s : S} {n : ℕ}
    (hu : unc s0) (hb : body s0 = .ok s1) (h : Reached body unc s1 n s) : Reached body unc s0 (n + 1) s := by
  induction h with
  | start => exact .step .start hu hb
  | step _ hu' hb' ih => exact .step ih hu' hb'

theorem Reached.inv {S : Type} {body : S → Py S} {unc : S → Prop} {s0 s : S} {n : ℕ} {I : S → Prop}
    (h : Reached body unc s0 n s) (h0 : I s0) (hs : ∀ s s', I s → body s = .ok s' → I s') : I s := by
  induction h with
  | start => exact h0
  | step _ _ hb ih => exact hs _ _ ih hb

section Generic

variable {S O : Type} {body : S → Py S} {unc : S → Prop} {count : S → ℕ} {out : S → Bool → O}
  {maxIter : ℤ} {s0 : S}

/-- The loop stops within `maxIter` rounds. -/
theorem iterLoop_terminates (hc : ∀ s s', body s = .ok s' → count s' = count s + 1) {fuel : ℕ} {s : S}
    (hm : ((count s : ℕ) : ℤ) < maxIter) (hf : maxIter ≤ (count s : ℤ) + fuel) :
    ∃ r, iterLoop body unc count out maxIter fuel s = some r := by
  induction fuel generalizing s with
  | zero => simp at hf; omega
  | succ n ih =>
    simp only [iterLoop]
    split
    · split
      · exact ⟨_, rfl⟩
      · rename_i hne
        cases hb : body s with
        | error e => exact ⟨_, rfl⟩
        | ok s' =>
          have := hc s s' hb
          apply ih <;> push_cast at * <;> omega
    · exact ⟨_, rfl⟩

/-- More fuel does not change the outcome. -/
theorem iterLoop_mono {fuel fuel' : ℕ} {s : S} {r : Py O} (hle : fuel ≤ fuel')
    (h : iterLoop body unc count out maxIter fuel s = some r) :
    iterLoop body unc count out maxIter fuel' s = some r := by
  induction fuel generalizing s fuel' with
  | zero => simp [iterLoop] at h
  | succ n ih =>
    obtain ⟨m, rfl⟩ : ∃ m, fuel' = m + 1 := ⟨fuel' - 1, by omega⟩
    simp only [iterLoop] at h ⊢
    split at h
    · rename_i hu
      rw [if_pos hu]
      split at h
      · rename_i hm; rw [if_pos hm]; exact h
      · rename_i hm
        rw [if_neg hm]
        cases hb : body s with
        | error e => rw [hb] at h; exact h
        | ok s' => rw [hb] at h; exact ih (by omega) h
    · rename_i hu
      rw [if_neg hu]; exact h

/-- What a finished loop returned. -/
theorem iterLoop_ok (hc : ∀ s s', body s = .ok s' → count s' = count s + 1) {fuel : ℕ} {s : S} {o : O}
    (h : iterLoop body unc count out maxIter fuel s = some (.ok o)) :
    ∃ n s', Reached body unc s n s' ∧ count s' = count s + n ∧
      ((o = out s' true ∧ unc s' ∧ ((count s + n + 1 : ℕ) : ℤ) = maxIter) ∨
        (o = out s' false ∧ ¬ unc s')) := by
  induction fuel generalizing s with
  | zero => simp [iterLoop] at h
  | succ n ih =>
    simp only [iterLoop] at h
    split at h
    · rename_i hu
      split at h
      · rename_i hm
        simp only [Option.some.injEq, Except.ok.injEq] at h
        exact ⟨0, s, .start, rfl, .inl ⟨h.symm, hu, by push_cast at hm ⊢; omega⟩⟩
      · cases hb : body s with
        | error e => rw [hb] at h; simp at h
        | ok s' =>
          rw [hb] at h
          obtain ⟨k, s'', hr, hk, hcase⟩ := ih h
          have := hc s s' hb
          refine ⟨k + 1, s'', .cons hu hb hr, by omega, ?_⟩
          rcases hcase with ⟨h1, h2, h3⟩ | h
          · exact .inl ⟨h1, h2, by rw [this] at h3; push_cast at h3 ⊢; omega⟩
          · exact .inr h
    · rename_i hu
      simp only [Option.some.injEq, Except.ok.injEq] at h
      exact ⟨0, s, .start, rfl, .inr ⟨h.symm, hu⟩⟩

/-- The iteration limit is never passed. -/
theorem iterLoop_count (hc : ∀ s s', body s = .ok s' → count s' = count s + 1) {fuel : ℕ} {s : S} {o : O}
    (hm : ((count s : ℕ) : ℤ) < maxIter)
    (h : iterLoop body unc count out maxIter fuel s = some (.ok o)) :
    ∃ n s', Reached body unc s n s' ∧ ((count s + n : ℕ) : ℤ) < maxIter ∧
      ((o = out s' true ∧ unc s' ∧ ((count s + n + 1 : ℕ) : ℤ) = maxIter) ∨
        (o = out s' false ∧ ¬ unc s')) := by
  induction fuel generalizing s with
  | zero => simp [iterLoop] at h
  | succ n ih =>
    simp only [iterLoop] at h
    split at h
    · rename_i hu
      split at h
      · rename_i hmm
        simp only [Option.some.injEq, Except.ok.injEq] at h
        exact ⟨0, s, .start, by simpa using hm, .inl ⟨h.symm, hu, by push_cast at hmm ⊢; omega⟩⟩
      · rename_i hne
        cases hb : body s with
        | error e => rw [hb] at h; simp at h
        | ok s' =>
          rw [hb] at h
          have := hc s s' hb
          obtain ⟨k, s'', hr, hk, hcase⟩ := ih (by push_cast at hne ⊢; omega) h
          refine ⟨k + 1, s'', .cons hu hb hr, by push_cast at hk ⊢; omega, ?_⟩
          rcases hcase with ⟨h1, h2, h3⟩ | h
          · exact .inl ⟨h1, h2, by rw [this] at h3; push_cast at h3 ⊢; omega⟩
          · exact .inr h
    · rename_i hu
      simp only [Option.some.injEq, Except.ok.injEq] at h
      exact ⟨0, s, .start, by simpa using hm, .inr ⟨h.symm, hu⟩⟩

/-- An exception of the loop is an exception of the update of some reached, unconverged state. -/
theorem iterLoop_error {fuel : ℕ} {s : S} {e : PyErr}
    (h : iterLoop body unc count out maxIter fuel s = some (.error e)) :
    ∃ n s', Reached body unc s n s' ∧ unc s' ∧ body s' = .error e := by
  induction fuel generalizing s with
  | zero => simp [iterLoop] at h
  | succ n ih =>
    simp only [iterLoop] at h
    split at h
    · rename_i hu
      split at h
      · simp at h
      · cases hb : body s with
        | error e' =>
          rw [hb] at h
          simp only [Option.some.injEq, Except.error.injEq] at h
          exact ⟨0, s, .start, hu, by rw [hb, h]⟩
        | ok s' =>
          rw [hb] at h
          obtain ⟨k, s'', hr, hk⟩ := ih h
          exact ⟨k + 1, s'', .cons hu hb hr, hk⟩
    · simp at h

/-- With a non-positive limit and an invariant that keeps the state unconverged, the loop runs forever. -/
theorem iterLoop_forever {I : S → Prop} (hu : ∀ s, I s → unc s)
    (hb : ∀ s, I s → ∃ s', body s = .ok s' ∧ I s') (hm : maxIter ≤ 0) (fuel : ℕ) {s : S} (hs : I s) :
    iterLoop body unc count out maxIter fuel s = none := by
  induction fuel generalizing s with
  | zero => rfl
  | succ n ih =>
    simp only [iterLoop]
    rw [if_pos (hu s hs), if_neg (by push_cast; omega)]
    obtain ⟨s', h1, h2⟩ := hb s hs
    rw [h1]
    exact ih h2

/-- With a non-positive limit the loop just runs from iterate to iterate. -/
theorem iterLoop_reached {s s' : S} {n : ℕ} (h : Reached body unc s n s') (hm : maxIter ≤ 0) (k : ℕ) :
    iterLoop body unc count out maxIter (n + k) s = iterLoop body unc count out maxIter k s' := by
  induction h generalizing k with
  | start => rw [Nat.zero_add]
  | step _ hu hb ih =>
    rw [Nat.add_assoc, ih, Nat.add_comm 1 k]
    simp only [iterLoop]
    rw [if_pos hu, if_neg (by push_cast; omega), hb]

/-- With a non-positive limit the loop ends exactly when some iterate meets the tolerances or its update
raises. -/
theorem iterLoop_nonpos_iff (hc : ∀ s s', body s = .ok s' → count s' = count s + 1) {s : S}
    (hm : maxIter ≤ 0) :
    (∃ fuel r, iterLoop body unc count out maxIter fuel s = some r) ↔
      ∃ n s', Reached body unc s n s' ∧ (¬ unc s' ∨ ∃ e, body s' = .error e) := by
  constructor
  · rintro ⟨fuel, r, h⟩
    cases r with
    | error e =>
      obtain ⟨n, s', h1, -, h2⟩ := iterLoop_error h
      exact ⟨n, s', h1, .inr ⟨e, h2⟩⟩
    | ok o =>
      obtain ⟨n, s', h1, h2, ⟨-, -, h3⟩ | ⟨-, h3⟩⟩ := iterLoop_ok hc h
      · push_cast at h3; omega
      · exact ⟨n, s', h1, .inl h3⟩
  · rintro ⟨n, s', h, h'⟩
    refine ⟨n + 1, ?_⟩
    rw [iterLoop_reached h hm]
    simp only [iterLoop]
    by_cases hu : unc s'
    · obtain ⟨e, he⟩ := h'.resolve_left (not_not.mpr hu)
      rw [if_pos hu, if_neg (by push_cast; omega), he]
      exact ⟨_, rfl⟩
    · rw [if_neg hu]
      exact ⟨_, rfl⟩

end Generic

/-! ### Steps -/

theorem limit_ok {d m x : ℝ} (hm : 0 ≤ m) (h : limit d m = .ok x) :
    |x| ≤ m ∧ (|d| ≤ m → x = d) ∧ (m < |d| → x = m * d / |d|) := by
  unfold limit at h
  split at h
  · rename_i hd
    rw [pyDiv_eq_ok] at h
    obtain ⟨h0, rfl⟩ := h
    refine ⟨?_, fun h' => absurd h' (not_le.mpr hd), fun _ => rfl⟩
    rw [abs_div, abs_mul, abs_abs, abs_of_nonneg hm, mul_div_assoc, div_self h0, mul_one]
  · rename_i hd
    simp only [Except.ok.injEq] at h
    subst h
    exact ⟨not_lt.mp hd, fun _ => rfl, fun h' => absurd h' hd⟩

theorem limit_defined {d m : ℝ} (hm : 0 ≤ m) : ∃ x, limit d m = .ok x := by
  unfold limit
  split
  · rename_i hd
    exact ⟨_, pyDiv_ok (lt_of_le_of_lt hm hd).ne'⟩
  · exact ⟨_, rfl⟩

theorem newton_eq_ok {hx hy px py eh ep : ℝ} {d : ℝ × ℝ} :
    newton hx hy px py eh ep = .ok d ↔ hx * py - px * hy ≠ 0 ∧
      d = ((py * -eh + -hy * -ep) / (hx * py - px * hy), (-px * -eh + hx * -ep) / (hx * py - px * hy)) := by
  simp only [newton, bind_eq_ok, pyDiv_eq_ok]
  constructor
  · rintro ⟨a, ⟨h, rfl⟩, b, ⟨-, rfl⟩, h2⟩
    simp only [Except.ok.injEq] at h2
    exact ⟨h, h2.symm⟩
  · rintro ⟨h, rfl⟩
    exact ⟨_, ⟨h, rfl⟩, _, ⟨h, rfl⟩, rfl⟩

/-- Data of one `cj_state` update. -/
theorem cjBody_ok {initial : ct.Gas} {density : ℝ} {s s' : CJ ct} (h : cjBody ct initial density s = .ok s') :
    ∃ gT gv e eT ev d,
      errEquilibrium ct s.gas initial s.v = .ok e ∧
      equilibrium ct s.gas density (s.T + 0.02 * s.T) = .ok gT ∧
      errEquilibrium ct gT initial s.v = .ok eT ∧
      equilibrium ct gT density s.T = .ok gv ∧
      errEquilibrium ct gv initial (s.v + 0.02 * s.v) = .ok ev ∧
      0.02 * s.T ≠ 0 ∧ 0.02 * s.v ≠ 0 ∧
      newton ((eT.1 - e.1) / (0.02 * s.T)) ((ev.1 - e.1) / (0.02 * s.v)) ((eT.2 - e.2) / (0.02 * s.T))
        ((ev.2 - e.2) / (0.02 * s.v)) e.1 e.2 = .ok d ∧
      limit d.1 (0.2 * s.T) = .ok s'.dT ∧ s'.dv = d.2 ∧
      s'.T = s.T + s'.dT ∧ s'.v = s.v + s'.dv ∧ s'.count = s.count + 1 ∧
      equilibrium ct gv density s'.T = .ok s'.gas := by
  simp only [cjBody, bind_eq_ok, pyDiv_eq_ok] at h
  obtain ⟨e, he, gT, hgT, eT, heT, hT, ⟨hT0, rfl⟩, pT, ⟨-, rfl⟩, gv, hgv, ev, hev, hv, ⟨hv0, rfl⟩,
    pv, ⟨-, rfl⟩, d, hd, dT, hdT, g, hg, h⟩ := h
  simp only [Except.ok.injEq] at h
  subst h
  exact ⟨gT, gv, e, eT, ev, d, he, hgT, heT, hgv, hev, hT0, hv0, hd, hdT, rfl, rfl, rfl, rfl, hg⟩

theorem cjBody_count {initial : ct.Gas} {density : ℝ} (s s' : CJ ct)
    (h : cjBody ct initial density s = .ok s') : s'.count = s.count + 1 := by
  obtain ⟨_, _, _, _, _, _, _, _, _, _, _, _, _, _, _, _, _, _, h, _⟩ := cjBody_ok h
  exact h

/-- Data of one `get_eq_state` update. -/
theorem rsBody_ok {u pv : ℝ} {post : ct.Gas} {s s' : RS ct} (h : rsBody ct u post pv s = .ok s') :
    ∃ gT gV e eT eV d,
      s.V ≠ 0 ∧ s.V + 0.02 * s.V ≠ 0 ∧ s'.V ≠ 0 ∧
      errReflected ct u s.gas post = .ok e ∧
      equilibrium ct s.gas (1 / s.V) (s.T + s.T * 0.02) = .ok gT ∧
      errReflected ct u gT post = .ok eT ∧
      equilibrium ct gT (1 / (s.V + 0.02 * s.V)) s.T = .ok gV ∧
      errReflected ct u gV post = .ok eV ∧
      s.T * 0.02 ≠ 0 ∧ 0.02 * s.V ≠ 0 ∧
      newton ((eT.1 - e.1) / (s.T * 0.02)) ((eV.1 - e.1) / (0.02 * s.V)) ((eT.2 - e.2) / (s.T * 0.02))
        ((eV.2 - e.2) / (0.02 * s.V)) e.1 e.2 = .ok d ∧
      limit d.1 (0.2 * s.T) = .ok s'.dT ∧ limit d.2 (volumeLimit pv s.V d.2) = .ok s'.dV ∧
      s'.T = s.T + s'.dT ∧ s'.V = s.V + s'.dV ∧ s'.count = s.count + 1 ∧
      equilibrium ct gV (1 / s'.V) s'.T = .ok s'.gas := by
  simp only [rsBody, bind_eq_ok, pyDiv_eq_ok, pyInv_eq_ok] at h
  obtain ⟨_, ⟨hV, rfl⟩, e, he, gT, hgT, eT, heT, hT, ⟨hT0, rfl⟩, pT, ⟨-, rfl⟩, _, ⟨hV1, rfl⟩, gv, hgv, ev, hev,
    hv, ⟨hv0, rfl⟩, pv, ⟨-, rfl⟩, d, hd, dT, hdT, dV, hdV, _, ⟨hV2, rfl⟩, g, hg, h⟩ := h
  simp only [Except.ok.injEq] at h
  subst h
  exact ⟨gT, gv, e, eT, ev, d, hV, hV1, hV2, he, hgT, heT, hgv, hev, hT0, hv0, hd, hdT, hdV, rfl, rfl, rfl, hg⟩

theorem rsBody_count {u pv : ℝ} {post : ct.Gas} (s s' : RS ct)
    (h : rsBody ct u post pv s = .ok s') : s'.count = s.count + 1 := by
  obtain ⟨_, _, _, _, _, _, _, _, _, _, _, _, _, _, _, _, _, _, _, _, _, h, _⟩ := rsBody_ok h
  exact h

/-- A limited temperature step keeps the temperature between 0.8 and 1.2 times its previous value. -/
theorem temperature_step {T d dT : ℝ} (hT : 0 < T) (h : limit d (0.2 * T) = .ok dT) :
    0.8 * T ≤ T + dT ∧ T + dT ≤ 1.2 * T := by
  have := (limit_ok (by positivity) h).1
  rw [abs_le] at this
  constructor <;> linarith [this.1, this.2]

/-- A limited volume step stays in `(0, pv]`. -/
theorem volume_step {pv V d dV : ℝ} (hV : 0 < V) (hle : V ≤ pv) (h : limit d (volumeLimit pv V d) = .ok dV) :
    0 < V + dV ∧ V + dV ≤ pv := by
  unfold volumeLimit at h
  split at h
  · rename_i hd
    have hd0 : 0 < d := by linarith
    obtain ⟨h1, h2, h3⟩ := limit_ok (m := 0.5 * (pv - V)) (by linarith) h
    rw [abs_le] at h1
    rcases le_or_gt |d| (0.5 * (pv - V)) with hc | hc
    · rw [h2 hc]
      rw [abs_of_pos hd0] at hc
      constructor <;> linarith
    · have : dV = 0.5 * (pv - V) := by
        rw [h3 hc, abs_of_pos hd0, mul_div_assoc, div_self hd0.ne', mul_one]
      rw [this]
      constructor <;> linarith
  · rename_i hd
    obtain ⟨h1, h2, h3⟩ := limit_ok (m := 0.2 * V) (by positivity) h
    have h1' := abs_le.mp h1
    refine ⟨by linarith [h1'.1], ?_⟩
    rcases le_or_gt |d| (0.2 * V) with hc | hc
    · rw [h2 hc]; linarith
    · rcases le_or_gt d 0 with hn | hp
      · have : dV ≤ 0 := by
          rw [h3 hc]
          exact div_nonpos_of_nonpos_of_nonneg (mul_nonpos_of_nonneg_of_nonpos (by positivity) hn) (abs_nonneg d)
        linarith
      · rw [abs_of_pos hp] at hc
        linarith [h1'.2]

end Pypbomb.SD
