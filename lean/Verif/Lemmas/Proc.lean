/-
Code that changes one gas object, compared with the models that thread the object as a value.
-/
import Verif.Model.Proc
import Verif.Props.SD

namespace Pypbomb.Process

open SD

variable {ct : Cantera} {α β : Type} {w : Proc ct} {a b : ℕ} {g gb : ct.Gas} {env : Env ct}

/-! ### The process monad -/

theorem bind_run (m : Act ct α) (f : α → Act ct β) (w : Proc ct) : (m >>= f) w = next (m w) f := rfl

theorem act_bind_assoc {γ : Type} (m : Act ct α) (f : α → Act ct β) (k : β → Act ct γ) :
    ((m >>= f) >>= k) = m >>= fun x => f x >>= k := by
  funext w
  simp only [bind_run]
  rcases m w with - | ⟨e | x, w'⟩ <;> rfl

theorem act_bind_pure (m : Act ct Unit) : (m >>= fun _ => pure ()) = m := by
  funext w
  rw [bind_run]
  rcases m w with - | ⟨e | x, w'⟩ <;> rfl

theorem py_bind_assoc {γ : Type} (m : Py α) (f : α → Py β) (k : β → Py γ) :
    ((m >>= f) >>= k) = m >>= fun x => f x >>= k := by
  cases m <;> rfl

theorem bind_of_ok {m : Act ct α} {f : α → Act ct β} {x : α} {w' : Proc ct} (h : m w = some (.ok x, w')) :
    (m >>= f) w = f x w' := by
  rw [bind_run, h]; rfl

theorem bind_of_error {m : Act ct α} {f : α → Act ct β} {e : PyErr} {w' : Proc ct} (h : m w = some (.error e, w')) :
    (m >>= f) w = some (.error e, w') := by
  rw [bind_run, h]; rfl

theorem bind_of_none {m : Act ct α} {f : α → Act ct β} (h : m w = none) : (m >>= f) w = none := by
  rw [bind_run, h]; rfl

theorem ite_pos {c : Prop} {i : Decidable c} (h : c) {x y : α} : (@ite α c i x y) = x := if_pos h

theorem ite_neg {c : Prop} {i : Decidable c} (h : ¬c) {x y : α} : (@ite α c i x y) = y := if_neg h

/-! ### Objects -/

theorem put_put (w : Proc ct) (a : ℕ) (g g' : ct.Gas) : (w.put a g).put a g' = w.put a g' := by
  simp [Proc.put]

theorem put_self (ha : a < w.gases.length) : (w.put a g).gases[a]? = some g := by
  simp [Proc.put, ha]

theorem put_other (hab : b ≠ a) : (w.put a g).gases[b]? = w.gases[b]? := by
  simp [Proc.put, List.getElem?_set_ne hab.symm]

theorem put_same (h : w.gases[a]? = some g) : w.put a g = w := by
  obtain ⟨ha, rfl⟩ := List.getElem?_eq_some_iff.mp h
  simp [Proc.put]

theorem put_length : (w.put a g).gases.length = w.gases.length := by simp [Proc.put]

/-! ### Code that changes one object -/

/-- Run with the object at `a` in state `g`, the code `m` does what `v` says: it returns the same value and leaves the
object in the given state, or raises the same exception, leaving the object in some state; nothing else changes. -/
def Follows (m : Act ct α) (w : Proc ct) (a : ℕ) (g : ct.Gas) (v : Py (α × ct.Gas)) : Prop :=
  match v with
  | .ok (x, g') => m (w.put a g) = some (.ok x, w.put a g')
  | .error e => ∃ g', m (w.put a g) = some (.error e, w.put a g')

theorem Follows.pure (x : α) : Follows (pure x) w a g (.ok (x, g)) := rfl

theorem Follows.lift (x : Py β) {f : β → Act ct α} {k : β → Py (α × ct.Gas)}
    (h : ∀ y, x = .ok y → Follows (f y) w a g (k y)) : Follows (Process.lift x >>= f) w a g (x >>= k) := by
  cases x with
  | error e => exact ⟨g, rfl⟩
  | ok y => exact h y rfl

theorem Follows.change (ha : a < w.gases.length) (op : ct.Gas → Py ct.Gas) (bad : ct.Gas → ct.Gas)
    {f : Unit → Act ct α} {k : ct.Gas → Py (α × ct.Gas)}
    (h : ∀ g', op g = .ok g' → Follows (f ()) w a g' (k g')) :
    Follows (Process.change a op bad >>= f) w a g (op g >>= k) := by
  have e : Process.change a op bad (w.put a g) = (match op g with
      | .error e => some (.error e, w.put a (bad g))
      | .ok g' => some (.ok (), w.put a g')) := by
    unfold Process.change
    rw [put_self ha]
    dsimp only
    cases op g <;> simp only [put_put]
  cases ho : op g with
  | error e' =>
    rw [ho] at e
    exact ⟨bad g, bind_of_error e⟩
  | ok g' =>
    rw [ho] at e
    have := h g' ho
    rw [ok_bind]
    unfold Follows at this ⊢
    rw [bind_of_ok e]
    exact this

theorem Follows.get_self (ha : a < w.gases.length) (p : ct.Gas → β) {f : β → Act ct α} {v : Py (α × ct.Gas)}
    (h : Follows (f (p g)) w a g v) : Follows (get a p >>= f) w a g v := by
  have e : get a p (w.put a g) = some (.ok (p g), w.put a g) := by
    unfold get
    rw [put_self ha]
  unfold Follows at h ⊢
  rw [bind_of_ok e]
  exact h

theorem Follows.get_other (hb : w.gases[b]? = some gb) (hne : b ≠ a) (p : ct.Gas → β) {f : β → Act ct α}
    {v : Py (α × ct.Gas)} (h : Follows (f (p gb)) w a g v) : Follows (get b p >>= f) w a g v := by
  have e : get b p (w.put a g) = some (.ok (p gb), w.put a g) := by
    unfold get
    rw [put_other hne, hb]
  unfold Follows at h ⊢
  rw [bind_of_ok e]
  exact h

theorem Follows.equilibrium (ha : a < w.gases.length) (D T : ℝ) {f : Unit → Act ct α}
    {k : ct.Gas → Py (α × ct.Gas)} (h : ∀ g', SD.equilibrium ct g D T = .ok g' → Follows (f ()) w a g' (k g')) :
    Follows (Process.equilibrium env a D T >>= f) w a g (SD.equilibrium ct g D T >>= k) := by
  unfold Process.equilibrium SD.equilibrium
  simp only [act_bind_assoc, py_bind_assoc]
  refine Follows.change ha _ _ fun g1 h1 => ?_
  refine Follows.change ha _ _ fun g2 h2 => ?_
  refine Follows.get_self ha _ ?_
  refine Follows.get_self ha _ ?_
  refine h g2 ?_
  unfold SD.equilibrium
  rw [h1, ok_bind, h2]

theorem Follows.errEquilibrium (ha : a < w.gases.length) (hb : w.gases[b]? = some gb) (hne : b ≠ a) (v : ℝ)
    {f : ℝ × ℝ → Act ct α} {k : ℝ × ℝ → Py (α × ct.Gas)} (h : ∀ e, Follows (f e) w a g (k e)) :
    Follows (Process.errEquilibrium a b v >>= f) w a g (SD.errEquilibrium ct g gb v >>= k) := by
  unfold Process.errEquilibrium SD.errEquilibrium
  simp only [act_bind_assoc, py_bind_assoc]
  refine Follows.get_other hb hne _ ?_
  refine Follows.get_other hb hne _ ?_
  refine Follows.get_other hb hne _ ?_
  refine Follows.get_self ha _ ?_
  refine Follows.get_self ha _ ?_
  refine Follows.get_self ha _ ?_
  exact Follows.lift _ fun y _ => h _

theorem Follows.errReflected (ha : a < w.gases.length) (hb : w.gases[b]? = some gb) (hne : b ≠ a) (u : ℝ)
    {f : ℝ × ℝ → Act ct α} {k : ℝ × ℝ → Py (α × ct.Gas)} (h : ∀ e, Follows (f e) w a g (k e)) :
    Follows (Process.errReflected u a b >>= f) w a g (SD.errReflected ct u g gb >>= k) := by
  unfold Process.errReflected SD.errReflected
  simp only [act_bind_assoc, py_bind_assoc]
  refine Follows.get_other hb hne _ ?_
  refine Follows.get_other hb hne _ ?_
  refine Follows.get_other hb hne _ ?_
  refine Follows.get_self ha _ ?_
  refine Follows.get_self ha _ ?_
  refine Follows.get_self ha _ ?_
  refine Follows.lift _ fun y _ => ?_
  refine Follows.lift _ fun y _ => ?_
  exact Follows.lift _ fun y _ => h _

/-! ### `cj_state` -/

/-- The local variables of a loop state. -/
def vars (s : CJ ct) : CJVars := ⟨s.T, s.v, s.dT, s.dv, s.count⟩

theorem cjBody_follows (ha : a < w.gases.length) (hb : w.gases[b]? = some gb) (hne : b ≠ a) (density : ℝ) (s : CJ ct) :
    Follows (Process.cjBody env a b density (vars s)) w a s.gas
      (SD.cjBody ct gb density s >>= fun s' => .ok (vars s', s'.gas)) := by
  unfold Process.cjBody SD.cjBody
  simp only [py_bind_assoc]
  refine Follows.errEquilibrium ha hb hne _ fun e => ?_
  refine Follows.equilibrium ha _ _ fun g1 _ => ?_
  refine Follows.errEquilibrium ha hb hne _ fun eT => ?_
  refine Follows.lift _ fun hT _ => ?_
  refine Follows.lift _ fun pT _ => ?_
  refine Follows.equilibrium ha _ _ fun g2 _ => ?_
  refine Follows.errEquilibrium ha hb hne _ fun ev => ?_
  refine Follows.lift _ fun hv _ => ?_
  refine Follows.lift _ fun pv _ => ?_
  refine Follows.lift _ fun d _ => ?_
  refine Follows.lift _ fun dT _ => ?_
  refine Follows.equilibrium ha _ _ fun g3 _ => ?_
  exact Follows.pure _

/-- The process after `cj_state` or `get_eq_state`: the working gas changed, and one warning more if the iteration did
not converge. -/
def Proc.after (w : Proc ct) (a : ℕ) (g : ct.Gas) (warned : Bool) : Proc ct :=
  { w.put a g with warnings := w.warnings + if warned = true then 1 else 0 }

theorem after_false (w : Proc ct) (a : ℕ) (g : ct.Gas) : w.after a g false = w.put a g := rfl

/-- What an iteration does to the process, given what the value model says. -/
def Iterates {O : Type} (r : Option (Py α × Proc ct)) (w : Proc ct) (a : ℕ) (v : Option (Py O)) (val : O → α)
    (gas : O → ct.Gas) (warned : O → Bool) : Prop :=
  match v with
  | none => r = none
  | some (.ok o) => r = some (.ok (val o), w.after a (gas o) (warned o))
  | some (.error e) => ∃ g, r = some (.error e, w.put a g)

theorem cjLoop_iterates (ha : a < w.gases.length) (hb : w.gases[b]? = some gb) (hne : b ≠ a) (density tolT tolV : ℝ)
    (maxIter : ℤ) (fuel : ℕ) (s : CJ ct) :
    Iterates (Process.cjLoop env a b density tolT tolV maxIter fuel (vars s) (w.put a s.gas)) w a
      (SD.cjLoop ct gb density tolT tolV maxIter fuel s) (fun o => (a, o.velocity)) CJOut.gas CJOut.warned := by
  induction fuel generalizing s with
  | zero => rfl
  | succ n ih =>
    rw [Process.cjLoop, SD.cjLoop]
    by_cases h1 : s.unconverged tolT tolV
    · rw [ite_pos (c := |(vars s).dT| > tolT * (vars s).T ∨ |(vars s).dv| > tolV * (vars s).v) h1, ite_pos h1]
      by_cases h2 : ((s.count + 1 : ℕ) : ℤ) = maxIter
      · rw [ite_pos (c := (((vars s).count + 1 : ℕ) : ℤ) = maxIter) h2, ite_pos h2]
        rfl
      · rw [ite_neg (c := (((vars s).count + 1 : ℕ) : ℤ) = maxIter) h2, ite_neg h2]
        have hB := cjBody_follows (env := env) ha hb hne density s
        cases hv : SD.cjBody ct gb density s with
        | error e =>
          rw [hv] at hB
          obtain ⟨g', hg'⟩ := hB
          exact ⟨g', bind_of_error hg'⟩
        | ok s' =>
          rw [hv] at hB
          have := ih s'
          unfold Iterates at this ⊢
          rw [show (Process.cjBody env a b density (vars s) >>= fun s' =>
            Process.cjLoop env a b density tolT tolV maxIter n s') (w.put a s.gas) =
            Process.cjLoop env a b density tolT tolV maxIter n (vars s') (w.put a s'.gas) from bind_of_ok hB]
          exact this
    · rw [ite_neg (c := |(vars s).dT| > tolT * (vars s).T ∨ |(vars s).dv| > tolV * (vars s).v) h1, ite_neg h1]
      rfl

theorem cjState_iterates (ha : w.gases[a]? = some g) (hb : w.gases[b]? = some gb) (hne : b ≠ a) (tolT tolV ratio : ℝ)
    (maxIter : ℤ) (fuel : ℕ) :
    Iterates (Process.cjState env a b tolT tolV ratio maxIter fuel w) w a
      (SD.cjState ct g gb tolT tolV ratio maxIter fuel) (fun o => (a, o.velocity)) CJOut.gas CJOut.warned := by
  have hl : a < w.gases.length := (List.getElem?_eq_some_iff.mp ha).1
  have hw : w = w.put a g := (put_same ha).symm
  unfold SD.cjState SD.cjStart SD.guessDensity Process.cjState
  have e : get b ct.density w = some (.ok (ct.density gb), w) := by
    unfold get
    rw [hb]
  rw [bind_of_ok e]
  cases h1 : pyInv (ct.density gb) with
  | error e => exact ⟨g, by rw [← hw]; rfl⟩
  | ok v1 =>
    simp only [ok_bind]
    rw [bind_of_ok (show lift (.ok v1) w = some (.ok v1, w) from rfl)]
    cases h2 : pyDiv v1 ratio with
    | error e => exact ⟨g, by rw [← hw]; rfl⟩
    | ok v2 =>
      simp only [ok_bind]
      rw [bind_of_ok (show lift (.ok v2) w = some (.ok v2, w) from rfl)]
      cases h3 : pyInv v2 with
      | error e => exact ⟨g, by rw [← hw]; rfl⟩
      | ok d =>
        simp only [ok_bind]
        rw [bind_of_ok (show lift (.ok d) w = some (.ok d, w) from rfl)]
        have hE := Follows.equilibrium (env := env) (w := w) (g := g) (k := fun g' => .ok ((), g')) hl d 2000
          (f := fun _ => pure ()) fun g' _ => Follows.pure _
        rw [act_bind_pure] at hE
        cases h4 : SD.equilibrium ct g d 2000 with
        | error e =>
          rw [h4] at hE
          obtain ⟨g', hg'⟩ := hE
          rw [← hw] at hg'
          exact ⟨g', bind_of_error hg'⟩
        | ok g' =>
          rw [h4] at hE
          rw [ok_bind]
          have hE' : Process.equilibrium env a d 2000 w = some (.ok (), w.put a g') := by
            conv_lhs => rw [hw]
            exact hE
          have := cjLoop_iterates (env := env) hl hb hne d tolT tolV maxIter fuel ⟨g', 2000, 2000, 1000, 1000, 0⟩
          unfold Iterates at this ⊢
          rw [bind_of_ok hE']
          exact this

/-! ### `get_eq_state` and `reflect` -/

/-- The local variables of a loop state; `guess_density` is the inverse of the guess volume. -/
noncomputable def rsVars (s : RS ct) : RSVars := ⟨s.T, s.V, 1 / s.V, s.dT, s.dV, s.count⟩

theorem rsBody_volume {speed postVolume : ℝ} {s s' : RS ct} (h : SD.rsBody ct speed gb postVolume s = .ok s') :
    s'.V ≠ 0 := by
  simp only [SD.rsBody, bind_eq_ok] at h
  obtain ⟨_, _, _, _, _, _, _, _, _, _, _, _, _, _, _, _, _, _, _, _, _, _, _, _, _, _, dV, _, d, hd, _, _, h⟩ := h
  cases h
  exact (pyInv_eq_ok.mp hd).1

theorem rsBody_follows (ha : a < w.gases.length) (hb : w.gases[b]? = some gb) (hne : b ≠ a) (speed postVolume : ℝ)
    (s : RS ct) (hV : s.V ≠ 0) :
    Follows (Process.rsBody env speed b a postVolume (rsVars s)) w a s.gas
      (SD.rsBody ct speed gb postVolume s >>= fun s' => .ok (rsVars s', s'.gas)) := by
  unfold Process.rsBody SD.rsBody
  simp only [py_bind_assoc, pyInv_ok hV, ok_bind]
  refine Follows.errReflected ha hb hne _ fun e => ?_
  refine Follows.equilibrium ha _ _ fun g1 _ => ?_
  refine Follows.errReflected ha hb hne _ fun eT => ?_
  refine Follows.lift _ fun hT _ => ?_
  refine Follows.lift _ fun pT _ => ?_
  refine Follows.lift _ fun dens _ => ?_
  refine Follows.equilibrium ha _ _ fun g2 _ => ?_
  refine Follows.errReflected ha hb hne _ fun ev => ?_
  refine Follows.lift _ fun hv _ => ?_
  refine Follows.lift _ fun pv _ => ?_
  refine Follows.lift _ fun d _ => ?_
  refine Follows.lift _ fun dT _ => ?_
  refine Follows.lift _ fun dV _ => ?_
  refine Follows.lift _ fun dens hd => ?_
  refine Follows.equilibrium ha _ _ fun g3 _ => ?_
  obtain ⟨-, rfl⟩ := pyInv_eq_ok.mp hd
  exact Follows.pure _

theorem rsLoop_iterates (ha : a < w.gases.length) (hb : w.gases[b]? = some gb) (hne : b ≠ a)
    (speed postVolume tolT tolV : ℝ) (maxIter : ℤ) (fuel : ℕ) (s : RS ct) (hV : s.V ≠ 0) :
    Iterates (Process.rsLoop env speed b a postVolume tolT tolV maxIter fuel (rsVars s) (w.put a s.gas)) w a
      (SD.rsLoop ct speed gb postVolume tolT tolV maxIter fuel s) (fun _ => a) RSOut.gas RSOut.warned := by
  induction fuel generalizing s with
  | zero => rfl
  | succ n ih =>
    rw [Process.rsLoop, SD.rsLoop]
    by_cases h1 : s.unconverged tolT tolV
    · rw [ite_pos (c := |(rsVars s).dT| > tolT * (rsVars s).T ∨ |(rsVars s).dV| > tolV * (rsVars s).V) h1, ite_pos h1]
      by_cases h2 : ((s.count + 1 : ℕ) : ℤ) = maxIter
      · rw [ite_pos (c := (((rsVars s).count + 1 : ℕ) : ℤ) = maxIter) h2, ite_pos h2]
        rfl
      · rw [ite_neg (c := (((rsVars s).count + 1 : ℕ) : ℤ) = maxIter) h2, ite_neg h2]
        have hB := rsBody_follows (env := env) ha hb hne speed postVolume s hV
        cases hv : SD.rsBody ct speed gb postVolume s with
        | error e =>
          rw [hv] at hB
          obtain ⟨g', hg'⟩ := hB
          exact ⟨g', bind_of_error hg'⟩
        | ok s' =>
          rw [hv] at hB
          have := ih s' (rsBody_volume hv)
          unfold Iterates at this ⊢
          rw [show (Process.rsBody env speed b a postVolume (rsVars s) >>= fun s' =>
            Process.rsLoop env speed b a postVolume tolT tolV maxIter n s') (w.put a s.gas) =
            Process.rsLoop env speed b a postVolume tolT tolV maxIter n (rsVars s') (w.put a s'.gas) from bind_of_ok hB]
          exact this
    · rw [ite_neg (c := |(rsVars s).dT| > tolT * (rsVars s).T ∨ |(rsVars s).dV| > tolV * (rsVars s).V) h1, ite_neg h1]
      rfl

theorem get_run {f : ct.Gas → α} (hb : w.gases[b]? = some gb) : get b f w = some (.ok (f gb), w) := by
  unfold get
  rw [hb]

theorem lift_run (x : Py α) (w : Proc ct) : lift x w = some (x, w) := rfl

theorem getEqState_iterates (ha : w.gases[a]? = some g) (hb : w.gases[b]? = some gb) (hne : b ≠ a)
    (speed tolT tolV : ℝ) (maxIter : ℤ) (fuel : ℕ) :
    Iterates (Process.getEqState env speed b a tolT tolV maxIter fuel w) w a
      (SD.getEqState ct speed gb g tolT tolV maxIter fuel) (fun _ => a) RSOut.gas RSOut.warned := by
  have hl : a < w.gases.length := (List.getElem?_eq_some_iff.mp ha).1
  have hw : w = w.put a g := (put_same ha).symm
  unfold SD.getEqState SD.rsStart Process.getEqState
  rw [bind_of_ok (get_run hb)]
  cases h1 : pyInv (ct.density gb) with
  | error e => exact ⟨g, by rw [← hw]; rfl⟩
  | ok v1 =>
    simp only [ok_bind]
    rw [bind_of_ok (lift_run _ _), bind_of_ok (get_run ha), bind_of_ok (get_run ha)]
    cases h2 : pyInv (ct.density g) with
    | error e => exact ⟨g, by rw [← hw]; rfl⟩
    | ok V =>
      simp only [ok_bind]
      rw [bind_of_ok (lift_run _ _)]
      have hE := Follows.equilibrium (env := env) (w := w) (g := g) (k := fun g' => .ok ((), g')) hl (ct.density g)
        (ct.T g) (f := fun _ => pure ()) fun g' _ => Follows.pure _
      rw [act_bind_pure] at hE
      obtain ⟨hD, rfl⟩ := pyInv_eq_ok.mp h2
      cases h4 : SD.equilibrium ct g (ct.density g) (ct.T g) with
      | error e =>
        rw [h4] at hE
        obtain ⟨g', hg'⟩ := hE
        rw [← hw] at hg'
        exact ⟨g', bind_of_error hg'⟩
      | ok g' =>
        rw [h4] at hE
        rw [ok_bind]
        have hE' : Process.equilibrium env a (ct.density g) (ct.T g) w = some (.ok (), w.put a g') := by
          conv_lhs => rw [hw]
          exact hE
        have := rsLoop_iterates (env := env) hl hb hne speed v1 tolT tolV maxIter fuel
          ⟨g', ct.T g, 1 / ct.density g, 1000, 1000, 0⟩ (by simpa using hD)
        unfold Iterates at this ⊢
        rw [bind_of_ok hE']
        simp only [rsVars, one_div_one_div] at this
        exact this

theorem cjState_run (ha : w.gases[a]? = some g) (hb : w.gases[b]? = some gb) (hne : b ≠ a) (tolT tolV ratio : ℝ) :
    Iterates (Process.cjState env a b tolT tolV ratio 500 500 w) w a
      (some (SD.cjStateDefault ct g gb tolT tolV ratio)) (fun o => (a, o.velocity)) CJOut.gas CJOut.warned := by
  have := cjState_iterates (env := env) ha hb hne tolT tolV ratio 500 500
  rwa [C58_default_limit 500 le_rfl] at this

theorem getEqState_run (ha : w.gases[a]? = some g) (hb : w.gases[b]? = some gb) (hne : b ≠ a) (speed : ℝ) :
    Iterates (Process.getEqState env speed b a 1e-4 1e-4 500 500 w) w a
      (some (SD.getEqStateDefault ct speed gb g)) (fun _ => a) RSOut.gas RSOut.warned := by
  have := getEqState_iterates (env := env) ha hb hne speed 1e-4 1e-4 500 500
  rwa [C64_default_limit 500 le_rfl] at this

theorem change_run (ha : w.gases[a]? = some g) (op : ct.Gas → Py ct.Gas) (bad : ct.Gas → ct.Gas) :
    change a op bad w = match op g with
      | .error e => some (.error e, w.put a (bad g))
      | .ok g' => some (.ok (), w.put a g') := by
  unfold change
  rw [ha]
  dsimp only
  cases op g <;> rfl

theorem setTPX_run (ha : w.gases[a]? = some g) (T P : ℝ) (X : ct.Species) :
    Process.setTPX env a T P X w = match ct.setTPX g T P X with
      | .error e => some (.error e, w.put a (env.debris.setTPX g T P X))
      | .ok g' => some (.ok (), w.put a g') := change_run ha _ _

theorem after_self (ha : a < w.gases.length) (c : Bool) : (w.after a g c).gases[a]? = some g := put_self ha

theorem after_other (hab : b ≠ a) (c : Bool) : (w.after a g c).gases[b]? = w.gases[b]? := put_other hab

theorem put_after (g g' : ct.Gas) (c : Bool) : (w.put a g).after a g' c = w.after a g' c := by
  simp [Proc.after, Proc.put]

theorem after_put (g g' : ct.Gas) : (w.put a g).put a g' = w.after a g' false := by
  simp [Proc.after, Proc.put]

/-- `reflect` changes the working gas only, and returns it. -/
theorem reflect_run {i p : ℕ} {gi gp : ct.Gas} (hi : w.gases[i]? = some gi) (hp : w.gases[p]? = some gp)
    (ha : w.gases[a]? = some g) (hpa : p ≠ a) (incident : ℝ) :
    match SD.reflect ct gi gp g incident with
    | .ok o => ∃ warned, Process.reflect env i p a incident w = some (.ok (o.1, o.2.1, a), w.after a o.2.2 warned) ∧
        ∀ u guess g1 out, particleSpeed ct gi gp = .ok u → reflectGuess ct gp incident = .ok guess →
          ct.setTPX g guess.1 guess.2 (ct.X gp) = .ok g1 → getEqStateDefault ct u gp g1 = .ok out →
          warned = out.warned
    | .error e => ∃ g' warned, Process.reflect env i p a incident w = some (.error e, w.after a g' warned) := by
  have hl : a < w.gases.length := (List.getElem?_eq_some_iff.mp ha).1
  have hw : w = w.after a g false := (put_same ha).symm
  unfold Process.reflect SD.reflect SD.particleSpeed SD.reflectGuess
  rw [bind_of_ok (get_run hi), bind_of_ok (get_run hi)]
  cases h1 : pyInv (ct.density gi) with
  | error e => exact ⟨g, false, by rw [← hw]; rfl⟩
  | ok v1 =>
  rw [bind_of_ok (lift_run _ _), bind_of_ok (get_run hp), bind_of_ok (get_run hp)]
  simp only [ok_bind]
  cases h2 : pyInv (ct.density gp) with
  | error e => exact ⟨g, false, by rw [← hw]; rfl⟩
  | ok v2 =>
  rw [bind_of_ok (lift_run _ _), bind_of_ok (get_run hp)]
  simp only [ok_bind]
  cases h3 : npSqrt ((ct.P gp - ct.P gi) * (v1 - v2)) with
  | error e => exact ⟨g, false, by rw [← hw]; rfl⟩
  | ok u =>
  rw [bind_of_ok (lift_run _ _)]
  simp only [ok_bind]
  cases h4 : pyDiv 0.2 (ct.density gp) with
  | error e => exact ⟨g, false, by rw [← hw]; rfl⟩
  | ok v =>
  rw [bind_of_ok (lift_run _ _)]
  simp only [ok_bind]
  cases h5 : pyDiv v v2 with
  | error e => exact ⟨g, false, by rw [← hw]; rfl⟩
  | ok q =>
  rw [bind_of_ok (lift_run _ _)]
  simp only [ok_bind]
  cases h6 : pyDiv (ct.T gp * (ct.P gp + ct.density gp * incident ^ 2 * (1 - q)) * v) (ct.P gp * v2) with
  | error e => exact ⟨g, false, by rw [← hw]; rfl⟩
  | ok t =>
  rw [bind_of_ok (lift_run _ _), bind_of_ok (get_run hp)]
  simp only [ok_bind]
  have hs := setTPX_run (env := env) ha t (ct.P gp + ct.density gp * incident ^ 2 * (1 - q)) (ct.X gp)
  cases h7 : ct.setTPX g t (ct.P gp + ct.density gp * incident ^ 2 * (1 - q)) (ct.X gp) with
  | error e =>
    rw [h7] at hs
    exact ⟨_, false, bind_of_error hs⟩
  | ok g1 =>
  rw [h7] at hs
  rw [bind_of_ok hs]
  simp only [ok_bind]
  have he := getEqState_run (env := env) (w := w.put a g1) (put_self hl) (by rw [put_other hpa]; exact hp) hpa u
  cases h8 : getEqStateDefault ct u gp g1 with
  | error e =>
    rw [h8] at he
    obtain ⟨g', he⟩ := he
    rw [after_put] at he
    exact ⟨_, _, bind_of_error he⟩
  | ok out =>
  rw [h8] at he
  simp only [Iterates, put_after] at he
  rw [bind_of_ok he, bind_of_ok (get_run (after_self hl _))]
  simp only [ok_bind]
  cases h9 : pyDiv (ct.P out.gas - ct.P gp) u with
  | error e => exact ⟨_, _, rfl⟩
  | ok x =>
  rw [bind_of_ok (lift_run _ _)]
  simp only [ok_bind]
  cases h10 : pyDiv x (ct.density gp) with
  | error e => exact ⟨_, _, rfl⟩
  | ok y =>
  rw [bind_of_ok (lift_run _ _)]
  refine ⟨out.warned, rfl, fun u' guess g1' out' e1 e2 e3 e4 => ?_⟩
  cases e1
  cases e2
  rw [h7] at e3
  cases e3
  rw [h8] at e4
  cases e4
  rfl

end Pypbomb.Process
