/-
C86-C88: gas objects, worker pools and warnings.  `Proc` (Verif.Model.Proc) is the state of a Python process: the gas
objects created so far in order of creation, the open pools, the number of warnings issued.
-/
import Verif.Lemmas.ProcCalls
import Verif.Props.CJSpeed
import Verif.Lemmas.SlowGas

namespace Pypbomb.Process

open SD Quantity

variable {ct : Cantera} {env : Env ct}

/-! ### C86: gas objects -/

/-- C86: `cj_state` on two different gas objects returns the working gas itself; it changes that object only, returning or
raising, and the outcome depends only on the states of the two objects. -/
theorem C86_cj_state {w : Proc ct} {working initial : ℕ} {g g1 : ct.Gas} (hw : w.gases[working]? = some g)
    (hi : w.gases[initial]? = some g1) (hne : initial ≠ working) (tolT tolV ratio : ℝ) {maxIter : ℤ} {fuel : ℕ}
    (h0 : 0 < maxIter) (hf : maxIter ≤ fuel) :
    ∃ r w', cjState env working initial tolT tolV ratio maxIter fuel w = some (r, w') ∧
      w'.gases.length = w.gases.length ∧ (∀ i, i ≠ working → w'.gases[i]? = w.gases[i]?) ∧
      ∃ v, SD.cjState ct g g1 tolT tolV ratio maxIter fuel = some v ∧
        (∀ o, v = .ok o → r = .ok (working, o.velocity) ∧ w'.gases[working]? = some o.gas) ∧
        ∀ e, v = .error e → r = .error e := by
  have hl : working < w.gases.length := (List.getElem?_eq_some_iff.mp hw).1
  have h := cjState_iterates (env := env) hw hi hne tolT tolV ratio maxIter fuel
  obtain ⟨v, hv⟩ := C58_terminates (ct := ct) (working := g) (initial := g1) (tolT := tolT) (tolV := tolV)
    (ratio := ratio) (maxIter := maxIter) (fuel := fuel) h0 hf
  rw [hv] at h
  cases v with
  | error e =>
    obtain ⟨g', h⟩ := h
    refine ⟨_, _, h, put_length, fun i hi => put_other hi, _, hv, ?_, ?_⟩
    · rintro o ho; cases ho
    · rintro e' he; cases he; rfl
  | ok o =>
    refine ⟨_, _, h, put_length, fun i hi => after_other hi _, _, hv, ?_, ?_⟩
    · rintro o' ho; cases ho; exact ⟨rfl, after_self hl _⟩
    · rintro e he; cases he

/-- C86: the same for `get_eq_state`. -/
theorem C86_get_eq_state {w : Proc ct} {working post : ℕ} {g g2 : ct.Gas} (hw : w.gases[working]? = some g)
    (hp : w.gases[post]? = some g2) (hne : post ≠ working) (speed tolT tolV : ℝ) {maxIter : ℤ} {fuel : ℕ}
    (h0 : 0 < maxIter) (hf : maxIter ≤ fuel) :
    ∃ r w', getEqState env speed post working tolT tolV maxIter fuel w = some (r, w') ∧
      w'.gases.length = w.gases.length ∧ (∀ i, i ≠ working → w'.gases[i]? = w.gases[i]?) ∧
      ∃ v, SD.getEqState ct speed g2 g tolT tolV maxIter fuel = some v ∧
        (∀ o, v = .ok o → r = .ok working ∧ w'.gases[working]? = some o.gas) ∧
        ∀ e, v = .error e → r = .error e := by
  have hl : working < w.gases.length := (List.getElem?_eq_some_iff.mp hw).1
  have h := getEqState_iterates (env := env) hw hp hne speed tolT tolV maxIter fuel
  obtain ⟨v, hv⟩ := C64_terminates (ct := ct) (u := speed) (post := g2) (working := g) (tolT := tolT)
    (tolV := tolV) (maxIter := maxIter) (fuel := fuel) h0 hf
  rw [hv] at h
  cases v with
  | error e =>
    obtain ⟨g', h⟩ := h
    refine ⟨_, _, h, put_length, fun i hi => put_other hi, _, hv, ?_, ?_⟩
    · rintro o ho; cases ho
    · rintro e' he; cases he; rfl
  | ok o =>
    refine ⟨_, _, h, put_length, fun i hi => after_other hi _, _, hv, ?_, ?_⟩
    · rintro o' ho; cases ho; exact ⟨rfl, after_self hl _⟩
    · rintro e he; cases he

/-- C86: `reflect` changes the working gas only: the initial and the post-shock gas are read. -/
theorem C86_reflect {w : Proc ct} {working initial post : ℕ} {g g1 g2 : ct.Gas} (hw : w.gases[working]? = some g)
    (hi : w.gases[initial]? = some g1) (hp : w.gases[post]? = some g2) (hne : post ≠ working) (incident : ℝ) :
    ∃ r w', reflect env initial post working incident w = some (r, w') ∧
      w'.gases.length = w.gases.length ∧ (∀ i, i ≠ working → w'.gases[i]? = w.gases[i]?) ∧
      (∀ o, SD.reflect ct g1 g2 g incident = .ok o →
        r = .ok (o.1, o.2.1, working) ∧ w'.gases[working]? = some o.2.2) ∧
      ∀ e, SD.reflect ct g1 g2 g incident = .error e → r = .error e := by
  have hl : working < w.gases.length := (List.getElem?_eq_some_iff.mp hw).1
  have h := reflect_run (env := env) hi hp hw hne incident
  obtain ⟨e, hv⟩ | ⟨o, hv⟩ := py_cases (SD.reflect ct g1 g2 g incident)
  · rw [hv] at h
    obtain ⟨g', c, h⟩ := h
    refine ⟨_, _, h, put_length, fun i hi => after_other hi _, ?_, ?_⟩
    · intro o ho; rw [hv] at ho; cases ho
    · intro e' he; rw [hv] at he; cases he; rfl
  · rw [hv] at h
    obtain ⟨c, h, -⟩ := h
    refine ⟨_, _, h, put_length, fun i hi => after_other hi _, ?_, ?_⟩
    · intro o' ho; rw [hv] at ho; cases ho; exact ⟨rfl, after_self hl _⟩
    · intro e he; rw [hv] at he; cases he

/-- C86: `cj_speed` leaves all existing gas objects as they are, returning or raising.  Speed, R^2 and exception do not
depend on the process it runs in, nor on the state of the worker processes; the returned state is an object created
by the call. -/
theorem C86_cj_speed (parallel : Bool) (P T : ℝ) (species : ct.Species) (mechanism : String)
    (returnR returnState : Bool) (w : Proc ct) :
    ∃ r w', cjSpeed env parallel P T species mechanism returnR returnState w = some (r, w') ∧
      w.gases <+: w'.gases ∧
      (∀ e, SD.cjSpeed ct (collector env parallel) P T species mechanism returnR returnState = .error e →
        r = .error e) ∧
      ∀ s, SD.cjSpeed ct (collector env parallel) P T species mechanism returnR returnState = .ok s →
        ∃ ref, r = .ok ⟨s.speed, s.rSquared, ref⟩ ∧ (s.state = none → ref = none) ∧
          ∀ g, s.state = some g → ∃ a, ref = some a ∧ w.gases.length ≤ a ∧ w'.gases[a]? = some g := by
  have h := cjSpeed_run (env := env) parallel T P species mechanism returnR returnState w
  obtain ⟨e, hv⟩ | ⟨s, hv⟩ := py_cases (SD.cjSpeed ct (collector env parallel) P T species mechanism returnR returnState)
  · rw [hv] at h
    obtain ⟨w', h, hg, -⟩ := h
    refine ⟨_, w', h, hg, ?_, ?_⟩
    · intro e' he; rw [hv] at he; cases he; rfl
    · intro s hs; rw [hv] at hs; cases hs
  · rw [hv] at h
    obtain ⟨-, -, -, -, ref, w', -, h, hg, -, -, -, hst⟩ := h
    refine ⟨_, w', h, hg, ?_, ?_⟩
    · intro e he; rw [hv] at he; cases he
    · intro s' hs
      rw [hv] at hs
      cases hs
      refine ⟨ref, rfl, fun hn => ?_, fun g hn => ?_⟩
      · rw [hn] at hst; exact hst
      · rw [hn] at hst; exact hst

/-- C86: the two states returned by `calculate_reflected_shock_state` are different objects, created by the call;
existing objects stay as they are, returning or raising. -/
theorem C86_reflected_shock_state (parallel : Bool) (reg : Registry) (temperature pressure : Quantity)
    (species : ct.Species) (mechanism : String) (w : Proc ct) :
    ∃ r w', reflectedShockState env parallel reg temperature pressure species mechanism w = some (r, w') ∧
      w.gases <+: w'.gases ∧
      (∀ e, SD.reflectedShockState ct (collector env parallel) reg temperature pressure species mechanism = .error e →
        r = .error e) ∧
      ∀ s, SD.reflectedShockState ct (collector env parallel) reg temperature pressure species mechanism = .ok s →
        ∃ a b, r = .ok ⟨s.reflectedSpeed, a, s.cjSpeed, b⟩ ∧ a ≠ b ∧ w.gases.length ≤ a ∧ w.gases.length ≤ b ∧
          w'.gases[a]? = some s.reflectedState ∧ w'.gases[b]? = some s.cjState := by
  have h := reflectedShockState_run (env := env) parallel reg temperature pressure species mechanism w
  obtain ⟨e, hv⟩ | ⟨s, hv⟩ := py_cases (SD.reflectedShockState ct (collector env parallel) reg temperature pressure species
    mechanism)
  · rw [hv] at h
    obtain ⟨w', h, hg, -⟩ := h
    refine ⟨_, w', h, hg, ?_, ?_⟩
    · intro e' he; rw [hv] at he; cases he; rfl
    · intro s hs; rw [hv] at hs; cases hs
  · rw [hv] at h
    obtain ⟨post, w', h, hg, -, -, hp, ha, hb⟩ := h
    refine ⟨_, w', h, hg, ?_, ?_⟩
    · intro e he; rw [hv] at he; cases he
    · intro s' hs
      rw [hv] at hs
      cases hs
      exact ⟨_, post, rfl, by omega, by omega, by omega, ha, hb⟩

/-- A piece of code whose outcome (value or exception) is `v` in every process, and that leaves existing gas objects and
the pools as they are and issues no warnings when it returns. -/
def Clean {α : Type} (m : Act ct α) (v : Py α) : Prop :=
  ∀ w, ∃ w', m w = some (v, w') ∧ w.gases <+: w'.gases ∧ w'.pools = w.pools ∧ w'.nextPool = w.nextPool ∧
    ((∃ x, v = .ok x) → w'.warnings = w.warnings)

theorem Does.clean {α : Type} {m : Act ct α} {v : Py α} (h : ∀ w, Does m w v 0) : Clean m v := by
  intro w
  have := h w
  cases v with
  | error e =>
    obtain ⟨w', h, hg⟩ := this
    exact ⟨w', h, hg.gases, hg.pools, hg.nextPool, by simp⟩
  | ok x =>
    obtain ⟨w', h, hg, hk⟩ := this
    exact ⟨w', h, hg.gases, hg.pools, hg.nextPool, fun _ => hk⟩

/-- C86: `calculate_laminar_flame_speed`. -/
theorem C86_laminar_flame_speed (reg : Registry) (temperature pressure : QIn) (species : ct.Species)
    (mechanism phase : String) :
    Clean (laminarFlameSpeed env reg temperature pressure species mechanism phase)
      (Thermochem.laminarFlameSpeed ct reg temperature pressure species mechanism phase) :=
  Does.clean fun _ => laminarFlameSpeed_does _ _ _ _ _ _ _

/-- C86: `get_eq_sound_speed`. -/
theorem C86_sound_speed (reg : Registry) (temperature pressure : QIn) (species : ct.Species)
    (mechanism phase : String) :
    Clean (eqSoundSpeed env reg temperature pressure species mechanism phase)
      (Thermochem.eqSoundSpeed ct reg temperature pressure species mechanism phase) :=
  Does.clean fun _ => eqSoundSpeed_does _ _ _ _ _ _ _

/-- C86: `calculate_run_up`, in which two gas objects are in use. -/
theorem C86_run_up (reg : Registry) (ratio : NumIn) (tube temperature pressure : QIn) (species : ct.Species)
    (mechanism phase : String) :
    Clean (runUp env reg ratio tube temperature pressure species mechanism phase)
      (DDT.runUp ct reg ratio tube temperature pressure species mechanism phase) :=
  Does.clean fun _ => runUp_does _ _ _ _ _ _ _ _ _

/-- C86: `calculate_max_initial_pressure`. -/
theorem C86_max_initial_pressure (parallel : Bool) (reg : Registry) (id od : QIn) (temperature : Quantity)
    (species : ct.Species) (mechanism : String) (max : Quantity) (modulus density : QIn) (poisson pm : ℝ)
    (useDlf : Bool) (tol : ℝ) (maxIter : ℤ) (state : String) (returnDlf : Bool) (w : Proc ct) :
    ∃ w', calculateMaxInitialPressure env parallel reg id od temperature species mechanism max modulus density poisson pm
        useDlf tol maxIter state returnDlf w =
        some (Tube.calculateMaxInitialPressure ct (collector env parallel) reg id od temperature species mechanism max
          modulus density poisson pm useDlf tol maxIter state returnDlf, w') ∧
      w.gases <+: w'.gases := by
  have h := initialPressure_run (env := env) parallel reg id od temperature species mechanism max modulus density poisson
    pm useDlf tol maxIter state returnDlf w
  unfold Tube.calculateMaxInitialPressure
  obtain ⟨e, hv⟩ | ⟨f, hv⟩ := py_cases (Tube.initialPressureSearch ct (collector env parallel) reg id od temperature
    species mechanism max modulus density poisson pm useDlf tol maxIter state)
  · rw [hv] at h ⊢
    obtain ⟨w', h, hg⟩ := h
    exact ⟨w', h, hg⟩
  · rw [hv] at h ⊢
    obtain ⟨w', h, hg, -⟩ := h
    exact ⟨w', h, hg⟩

/-- A call of the package's API that uses gas objects. -/
inductive Call (ct : Cantera) where
  | cjSpeed (parallel : Bool) (P T : ℝ) (species : ct.Species) (mechanism : String) (returnR returnState : Bool)
  | shock (parallel : Bool) (reg : Registry) (temperature pressure : Quantity) (species : ct.Species)
      (mechanism : String)
  | flame (reg : Registry) (temperature pressure : QIn) (species : ct.Species) (mechanism phase : String)
  | sound (reg : Registry) (temperature pressure : QIn) (species : ct.Species) (mechanism phase : String)
  | runUp (reg : Registry) (ratio : NumIn) (tube temperature pressure : QIn) (species : ct.Species)
      (mechanism phase : String)
  | maxInitial (parallel : Bool) (reg : Registry) (id od : QIn) (temperature : Quantity) (species : ct.Species)
      (mechanism : String) (max : Quantity) (modulus density : QIn) (poisson pm : ℝ) (useDlf : Bool) (tol : ℝ)
      (maxIter : ℤ) (state : String) (returnDlf : Bool)

/-- The process after code has run, whether it returned or raised (an exception is caught by the user). -/
def ran {α : Type} (m : Act ct α) (w : Proc ct) : Proc ct :=
  match m w with
  | none => w
  | some r => r.2

/-- The process after a call. -/
noncomputable def Call.after (env : Env ct) : Call ct → Proc ct → Proc ct
  | .cjSpeed parallel P T species mechanism returnR returnState =>
    ran (Process.cjSpeed env parallel P T species mechanism returnR returnState)
  | .shock parallel reg temperature pressure species mechanism =>
    ran (reflectedShockState env parallel reg temperature pressure species mechanism)
  | .flame reg temperature pressure species mechanism phase =>
    ran (laminarFlameSpeed env reg temperature pressure species mechanism phase)
  | .sound reg temperature pressure species mechanism phase =>
    ran (eqSoundSpeed env reg temperature pressure species mechanism phase)
  | .runUp reg ratio tube temperature pressure species mechanism phase =>
    ran (Process.runUp env reg ratio tube temperature pressure species mechanism phase)
  | .maxInitial parallel reg id od temperature species mechanism max modulus density poisson pm useDlf tol maxIter state
      returnDlf =>
    ran (calculateMaxInitialPressure env parallel reg id od temperature species mechanism max modulus density poisson pm
      useDlf tol maxIter state returnDlf)

/-- The process after a sequence of calls, each in its own environment. -/
noncomputable def history (calls : List (Env ct × Call ct)) (w : Proc ct) : Proc ct :=
  calls.foldl (fun w c => c.2.after c.1 w) w

theorem ran_eq {α : Type} {m : Act ct α} {w w' : Proc ct} {r : Py α} (h : m w = some (r, w')) : ran m w = w' := by
  unfold ran
  rw [h]

theorem ran_prefix {α : Type} {m : Act ct α} {w w' : Proc ct} {r : Py α} (h : m w = some (r, w'))
    (hg : w.gases <+: w'.gases) : w.gases <+: (ran m w).gases := by
  rw [ran_eq h]
  exact hg

theorem call_after_prefix (c : Call ct) (w : Proc ct) : w.gases <+: (c.after env w).gases := by
  cases c with
  | cjSpeed parallel P T species mechanism returnR returnState =>
    obtain ⟨r, w', h, hg, -⟩ := C86_cj_speed (env := env) parallel P T species mechanism returnR returnState w
    exact ran_prefix h hg
  | shock parallel reg temperature pressure species mechanism =>
    obtain ⟨r, w', h, hg, -⟩ := C86_reflected_shock_state (env := env) parallel reg temperature pressure species mechanism w
    exact ran_prefix h hg
  | flame reg temperature pressure species mechanism phase =>
    obtain ⟨w', h, hg, -⟩ := C86_laminar_flame_speed (env := env) reg temperature pressure species mechanism phase w
    exact ran_prefix h hg
  | sound reg temperature pressure species mechanism phase =>
    obtain ⟨w', h, hg, -⟩ := C86_sound_speed (env := env) reg temperature pressure species mechanism phase w
    exact ran_prefix h hg
  | runUp reg ratio tube temperature pressure species mechanism phase =>
    obtain ⟨w', h, hg, -⟩ := C86_run_up (env := env) reg ratio tube temperature pressure species mechanism phase w
    exact ran_prefix h hg
  | maxInitial parallel reg id od temperature species mechanism max modulus density poisson pm useDlf tol maxIter state
      returnDlf =>
    obtain ⟨w', h, hg⟩ := C86_max_initial_pressure (env := env) parallel reg id od temperature species mechanism max
      modulus density poisson pm useDlf tol maxIter state returnDlf w
    exact ran_prefix h hg

/-- C86: whatever calls follow, returning or raising, a gas object that exists (one of the user's own, or a state returned
by an earlier call) stays as it is. -/
theorem C86_objects_stay (calls : List (Env ct × Call ct)) {w : Proc ct} {i : ℕ} {g : ct.Gas}
    (h : w.gases[i]? = some g) : (history calls w).gases[i]? = some g := by
  have key : ∀ (calls : List (Env ct × Call ct)) (w : Proc ct), w.gases <+: (history calls w).gases := by
    intro calls
    induction calls with
    | nil => exact fun w => List.prefix_rfl
    | cons c l ih => exact fun w => (call_after_prefix c.2 w).trans (ih _)
  obtain ⟨l, hl⟩ := key calls w
  rw [← hl, List.getElem?_append_left (List.getElem?_eq_some_iff.mp h).1, h]

/-- C86: evaluating the grid in a pool gives what the serial evaluation gives, whatever happened before in the calling
process and in the workers: both raise, or both return the same speed and R^2, and states that agree. -/
theorem C86_parallel_is_serial (hf : Fair env.collect) (env' : Env ct) (P T : ℝ) (species : ct.Species)
    (mechanism : String) (returnR returnState : Bool) (w w' : Proc ct) :
    ∃ r r' w1 w1', cjSpeed env true P T species mechanism returnR returnState w = some (r, w1) ∧
      cjSpeed env' false P T species mechanism returnR returnState w' = some (r', w1') ∧
      (((∃ e, r = .error e) ∧ ∃ e, r' = .error e) ∨
        ∃ speed r2 ref ref', r = .ok ⟨speed, r2, ref⟩ ∧ r' = .ok ⟨speed, r2, ref'⟩ ∧
          (ref = none ∧ ref' = none ∨
            ∃ a b g, ref = some a ∧ ref' = some b ∧ w1.gases[a]? = some g ∧ w1'.gases[b]? = some g)) := by
  obtain ⟨r, w1, h1, -, he1, hs1⟩ := C86_cj_speed (env := env) true P T species mechanism returnR returnState w
  obtain ⟨r', w1', h2, -, he2, hs2⟩ := C86_cj_speed (env := env') false P T species mechanism returnR returnState w'
  refine ⟨r, r', w1, w1', h1, h2, ?_⟩
  have hs := C61_parallel_is_serial (ct := ct) (P := P) (T := T) (species := species) (mechanism := mechanism)
    (returnR := returnR) (returnState := returnState) hf
  simp only [collector, if_true, Bool.false_eq_true, if_false] at he1 hs1 he2 hs2
  rcases hs with ⟨s, hv, hv'⟩ | ⟨⟨e, hv⟩, e', hv'⟩
  · obtain ⟨ref, hr, hn, hg⟩ := hs1 s hv
    obtain ⟨ref', hr', hn', hg'⟩ := hs2 s hv'
    refine Or.inr ⟨_, _, _, _, hr, hr', ?_⟩
    cases hst : s.state with
    | none => exact Or.inl ⟨hn hst, hn' hst⟩
    | some g =>
      obtain ⟨a, ha, -, hga⟩ := hg g hst
      obtain ⟨b, hb, -, hgb⟩ := hg' g hst
      exact Or.inr ⟨a, b, g, ha, hb, hga, hgb⟩
  · exact Or.inl ⟨⟨_, he1 _ hv⟩, _, he2 _ hv'⟩

/-! #### The same object passed twice -/

theorem errEquilibrium_alias {w : Proc ct} {a : ℕ} {g : ct.Gas} (h : w.gases[a]? = some g) (v : ℝ) :
    errEquilibrium a a v w = some (.ok (0, 0), w) ∨ ∃ e, errEquilibrium a a v w = some (.error e, w) := by
  unfold errEquilibrium
  simp only [bind_of_ok (get_run h)]
  by_cases hd : ct.density g = 0
  · right
    refine ⟨.zeroDivision, bind_of_error ?_⟩
    rw [lift_run, hd]
    simp [pyDiv]
  · left
    rw [pyDiv_ok hd, bind_of_ok (lift_run _ _), mul_div_assoc, div_self hd, mul_one, sub_self, sub_self]
    rfl

theorem equilibrium_alias {w : Proc ct} {a : ℕ} {g : ct.Gas} (h : w.gases[a]? = some g) (D T : ℝ) :
    (∃ w' g', equilibrium env a D T w = some (.ok (), w') ∧ w'.gases[a]? = some g') ∨
      ∃ e w', equilibrium env a D T w = some (.error e, w') := by
  have hl : a < w.gases.length := (List.getElem?_eq_some_iff.mp h).1
  have hE := Follows.equilibrium (env := env) (w := w) (g := g) (k := fun g' => .ok ((), g')) hl D T
    (f := fun _ => pure ()) fun g' _ => Follows.pure _
  rw [act_bind_pure] at hE
  unfold Follows at hE
  rw [put_same h] at hE
  cases hv : SD.equilibrium ct g D T with
  | error e =>
    rw [hv] at hE
    obtain ⟨g', hE⟩ := hE
    exact Or.inr ⟨_, _, hE⟩
  | ok g' =>
    rw [hv] at hE
    exact Or.inl ⟨_, g', hE, put_self hl⟩

theorem raises_bind {α β : Type} {m : Act ct α} {f : α → Act ct β} {w : Proc ct}
    (h : (∃ x w', m w = some (.ok x, w') ∧ ∃ e w'', f x w' = some (.error e, w'')) ∨ ∃ e w', m w = some (.error e, w')) :
    ∃ e w', (m >>= f) w = some (.error e, w') := by
  rcases h with ⟨x, w', h, e, w'', h'⟩ | ⟨e, w', h⟩
  · exact ⟨e, w'', (bind_of_ok h).trans h'⟩
  · exact ⟨e, w', bind_of_error h⟩

theorem raises_get {α β : Type} {f : α → Act ct β} {w : Proc ct} {p : ct.Gas → α} {a : ℕ} {g : ct.Gas}
    (hg : w.gases[a]? = some g) (h : ∃ e w', f (p g) w = some (.error e, w')) :
    ∃ e w', (get a p >>= f) w = some (.error e, w') := raises_bind (Or.inl ⟨_, _, get_run hg, h⟩)

theorem raises_lift {α β : Type} {f : α → Act ct β} {w : Proc ct} {x : Py α}
    (h : ∀ y, x = .ok y → ∃ e w', f y w = some (.error e, w')) :
    ∃ e w', (lift x >>= f) w = some (.error e, w') := by
  cases x with
  | error e => exact ⟨e, w, rfl⟩
  | ok y => exact raises_bind (Or.inl ⟨_, _, lift_run _ _, h y rfl⟩)

theorem raises_equilibrium {β : Type} {f : Unit → Act ct β} {w : Proc ct} {a : ℕ} {g : ct.Gas}
    (hg : w.gases[a]? = some g) (D T : ℝ)
    (h : ∀ w' g', w'.gases[a]? = some g' → ∃ e w'', f () w' = some (.error e, w'')) :
    ∃ e w', (equilibrium env a D T >>= f) w = some (.error e, w') := by
  rcases equilibrium_alias (env := env) hg D T with ⟨w', g', h1, h2⟩ | ⟨e, w', h1⟩
  · exact raises_bind (Or.inl ⟨_, _, h1, h w' g' h2⟩)
  · exact raises_bind (Or.inr ⟨_, _, h1⟩)

theorem raises_err {β : Type} {f : ℝ × ℝ → Act ct β} {w : Proc ct} {a : ℕ} {g : ct.Gas}
    (hg : w.gases[a]? = some g) (v : ℝ) (h : ∃ e w', f (0, 0) w = some (.error e, w')) :
    ∃ e w', (errEquilibrium a a v >>= f) w = some (.error e, w') := by
  rcases errEquilibrium_alias hg v with h1 | ⟨e, h1⟩
  · exact raises_bind (Or.inl ⟨_, _, h1, h⟩)
  · exact raises_bind (Or.inr ⟨_, _, h1⟩)

/-- C86: the two arguments of `cj_state` must be different objects: called with one object for both it never returns a
state, because both sides of the jump conditions agree and the Jacobian is singular. -/
theorem C86_cj_state_same_object {w : Proc ct} {a : ℕ} {g : ct.Gas} (hg : w.gases[a]? = some g) {tolT : ℝ}
    (ht : tolT < 0.5) (tolV ratio : ℝ) {maxIter : ℤ} (hm : maxIter ≠ 1) {fuel : ℕ} (hf : 0 < fuel) :
    ∃ e w', cjState env a a tolT tolV ratio maxIter fuel w = some (.error e, w') := by
  unfold cjState
  refine raises_get hg (raises_lift fun v _ => raises_lift fun v' _ => raises_lift fun d _ =>
    raises_equilibrium hg _ _ fun w1 g1 h1 => ?_)
  obtain ⟨n, rfl⟩ : ∃ n, fuel = n + 1 := ⟨fuel - 1, by omega⟩
  rw [cjLoop, ite_pos (Or.inl (by simp only; rw [abs_of_pos (by norm_num)]; linarith)),
    ite_neg (by simp only; push_cast; omega)]
  refine raises_bind (Or.inr ?_)
  unfold cjBody
  refine raises_err h1 _ (raises_equilibrium h1 _ _ fun w2 g2 h2 => raises_err h2 _ (raises_lift fun hT e1 =>
    raises_lift fun pT e2 => raises_equilibrium h2 _ _ fun w3 g3 h3 => raises_err h3 _ (raises_lift fun hv e3 =>
      raises_lift fun pv e4 => raises_lift fun x e5 => ?_)))
  exfalso
  simp only [sub_self, pyDiv_eq_ok, zero_div] at e1 e2 e3 e4
  obtain ⟨-, rfl⟩ := e1
  obtain ⟨-, rfl⟩ := e2
  obtain ⟨-, rfl⟩ := e3
  obtain ⟨-, rfl⟩ := e4
  simp [newton, pyDiv] at e5

/-! #### A concrete process -/

/-- Failed calls leave the object as it was; workers are new processes; results come back in reverse. -/
def exEnv (ct : Cantera) : Env ct where
  debris := ⟨fun g _ _ _ => g, fun g _ _ => g, fun g _ _ => g, fun g _ => g, id⟩
  worker := fun _ _ => ⟨[], [], 0, 0⟩
  collect := reversed

/-- A process with two of the user's gas objects. -/
noncomputable def exProc : Proc (tvGas exP exH) := ⟨[tvMk exP exH 700 4, tvMk exP exH 300 1], [], 0, 0⟩

/-- The hypotheses of C86 are met: `cj_state` called on the two objects leaves the second as it is and brings the first to
the CJ state at density ratio 2. -/
example : ∃ r w', cjState (exEnv _) 0 1 1e-4 1e-4 2 500 500 exProc = some (r, w') ∧
    r = .ok (0, exV 2) ∧ w'.gases[0]? = some (tvMk exP exH 2100 2) ∧ w'.gases[1]? = some (tvMk exP exH 300 1) := by
  obtain ⟨r, w', h, -, hu, v, hv, ho, -⟩ := C86_cj_state (env := exEnv _) (w := exProc) (working := 0) (initial := 1)
    rfl rfl (by norm_num) 1e-4 1e-4 2 (maxIter := 500) (fuel := 500) (by norm_num) (by norm_num)
  rw [ex_cjState (tvGas_isTV exP exH) (by norm_num) (by norm_num) (by norm_num), Option.some.injEq] at hv
  obtain ⟨h1, h2⟩ := ho _ hv.symm
  exact ⟨r, w', h, h1, h2, hu 1 (by norm_num)⟩

/-- The user's objects stay, and the state returned by `cj_speed`, evaluated in a pool, is a third one. -/
example : ∃ a w', cjSpeed (exEnv _) true 100000 300 () "gri30.cti" true true exProc =
      some (.ok ⟨2000, some (some 1), some a⟩, w') ∧
    2 ≤ a ∧ w'.gases[a]? = some (tvMk exP exH 2100 1.8) ∧ w'.gases[0]? = some (tvMk exP exH 700 4) := by
  obtain ⟨r, w', h, hg, -, hs⟩ := C86_cj_speed (env := exEnv (tvGas exP exH)) true 100000 300 () "gri30.cti" true true
    exProc
  obtain ⟨out, o, h1, h2, h3, h4, h5⟩ := C63_exact_for_parabola (ct := tvGas exP exH) (P := 100000) (T := 300)
    (species := ()) (mechanism := "gri30.cti") reversed_fair (a := 1000) (b := -3600) (c := 5240) (by norm_num)
    (by norm_num) (ex_hyp (tvGas_isTV exP exH) (by norm_num))
  obtain ⟨ref, rfl, -, hst⟩ := hs out h1
  obtain ⟨a, rfl, ha, hga⟩ := hst _ h5
  have h6 := ex_parabola (ct := tvGas exP exH) (P := 100000) (T := 300) (species := ()) (mechanism := "gri30.cti")
    (tvGas_isTV exP exH) (by norm_num) (r := -(-3600) / (2 * 1000)) (by norm_num) (by norm_num)
  obtain ⟨g, e1, e2⟩ := h4
  obtain ⟨g', e3, e4⟩ := h6
  rw [e1, Except.ok.injEq] at e3
  subst e3
  rw [e2, Option.some.injEq, Except.ok.injEq] at e4
  rw [e4] at hga
  refine ⟨a, w', ?_, ha, ?_, ?_⟩
  · rw [h, h2, h3]
    norm_num
  · rw [hga]
    congr 2
    norm_num
  · obtain ⟨l, hl⟩ := hg
    rw [← hl]
    rfl

/-! ### C87: worker pools -/

/-- C87 (partial: on return): `cj_speed` with multiprocessing opens one pool and has closed it when it returns; without,
it opens none. -/
theorem C87_closed_on_return_partial {parallel : Bool} {P T : ℝ} {species : ct.Species} {mechanism : String}
    {returnR returnState : Bool} {w w' : Proc ct} {s : SpeedRef}
    (h : cjSpeed env parallel P T species mechanism returnR returnState w = some (.ok s, w')) :
    w'.pools = w.pools ∧ w'.nextPool = w.nextPool + if parallel = true then 1 else 0 := by
  have hr := cjSpeed_run (env := env) parallel T P species mechanism returnR returnState w
  obtain ⟨e, hv⟩ | ⟨s, hv⟩ := py_cases (SD.cjSpeed ct (collector env parallel) P T species mechanism returnR returnState)
  · rw [hv] at hr
    obtain ⟨w1, h1, -⟩ := hr
    rw [h] at h1
    cases h1
  · rw [hv] at hr
    obtain ⟨-, -, -, -, ref, w1, -, h1, -, hp, hn, -⟩ := hr
    rw [h] at h1
    cases h1
    exact ⟨hp, hn.trans (pooled_nextPool w parallel)⟩

/-- C87 (partial: on return): a search for the initial pressure that made `n` updates has opened and closed `n + 1`
pools. -/
theorem C87_search_partial {parallel : Bool} {reg : Registry} {id od : QIn} {temperature : Quantity}
    {species : ct.Species} {mechanism : String} {max : Quantity} {modulus density : QIn} {poisson pm : ℝ}
    {useDlf : Bool} {tol : ℝ} {maxIter : ℤ} {state : String} {returnDlf : Bool} {w : Proc ct} {f : Tube.Found}
    (h : Tube.initialPressureSearch ct (collector env parallel) reg id od temperature species mechanism max modulus
      density poisson pm useDlf tol maxIter state = .ok f) :
    ∃ r w', calculateMaxInitialPressure env parallel reg id od temperature species mechanism max modulus density poisson
        pm useDlf tol maxIter state returnDlf w = some (.ok r, w') ∧
      w'.pools = w.pools ∧ w'.nextPool = w.nextPool + if parallel = true then f.updates + 1 else 0 := by
  have hr := initialPressure_run (env := env) parallel reg id od temperature species mechanism max modulus density poisson
    pm useDlf tol maxIter state returnDlf w
  rw [h] at hr
  obtain ⟨w', h1, -, hp, hn⟩ := hr
  exact ⟨_, w', h1, hp, hn⟩

/-- C87: exactly which failures leave the pool open: those of the evaluation on the grids (or of the fit), because there
`pool.close()` is not in a `finally` block; a failure in the later computation of the state comes after it. -/
theorem C87_left_open {P T : ℝ} {species : ct.Species} {mechanism : String} {returnR returnState : Bool}
    {w w' : Proc ct} {e : PyErr}
    (h : cjSpeed env true P T species mechanism returnR returnState w = some (.error e, w')) :
    w'.nextPool = w.nextPool + 1 ∧
      ((∃ s w'', cjSpeed env true P T species mechanism returnR false w = some (.ok s, w'')) → w'.pools = w.pools) ∧
      ((¬∃ s w'', cjSpeed env true P T species mechanism returnR false w = some (.ok s, w'')) →
        w'.pools = w.nextPool :: w.pools) := by
  have hr := cjSpeed_run (env := env) true T P species mechanism returnR returnState w
  have key : (∃ s w'', cjSpeed env true P T species mechanism returnR false w = some (.ok s, w'')) ↔
      ∃ l, SD.refineLoop (collector env true) (SD.overRatio ct T P species mechanism) 0 4 1.5 2 none 0 = .ok l := by
    have hr := cjSpeed_run (env := env) true T P species mechanism returnR false w
    have hl := refineLoop_run (env := env) true T P species mechanism ⟨⟨0, 0, 0, some 0⟩, 0⟩ w
    unfold SD.cjSpeed at hr
    obtain ⟨e, he⟩ | ⟨l, he⟩ := py_cases (SD.refineLoop (collector env true) (SD.overRatio ct T P species mechanism) 0 4
      1.5 2 none 0)
    · rw [he] at hr
      obtain ⟨w1, h1, -⟩ := hr
      rw [h1, he]
      simp
    · rw [he] at hl
      obtain ⟨r1, r2, r3, r4, w1, rfl, -⟩ := hl
      rw [he] at hr
      simp only [ok_bind, stateAt, Bool.false_eq_true, if_false] at hr
      obtain ⟨-, -, -, -, ref, w2, -, h2, -⟩ := hr
      exact ⟨fun _ => ⟨_, he⟩, fun _ => ⟨_, _, h2⟩⟩
  rw [key]
  obtain ⟨e', hv⟩ | ⟨s, hv⟩ := py_cases (SD.cjSpeed ct (collector env true) P T species mechanism returnR returnState)
  · rw [hv] at hr
    obtain ⟨w1, h1, -, hn, hp, hp'⟩ := hr
    rw [h] at h1
    cases h1
    exact ⟨hn, hp, hp'⟩
  · rw [hv] at hr
    obtain ⟨-, -, -, -, ref, w1, -, h1, -⟩ := hr
    rw [h] at h1
    cases h1

theorem raising_grid {collect : Collect} (hf : Fair collect) {P T : ℝ} {species : ct.Species} {mechanism : String}
    {e : PyErr} (h : ct.solution mechanism "" = .error e) :
    ∃ e', SD.refine collect (SD.overRatio ct T P species mechanism) 1.5 2 = .error e' := by
  obtain ⟨e', he⟩ | ⟨r, hr⟩ := py_cases (SD.refine collect (SD.overRatio ct T P species mechanism) 1.5 2)
  · exact ⟨e', he⟩
  · obtain ⟨vel, R⟩ := refine_refinement hf hr
    obtain ⟨v, hv⟩ : ∃ v, vel[0]? = some v := ⟨_, List.getElem?_eq_getElem (by rw [R.length]; norm_num)⟩
    obtain ⟨o, ⟨g, hg, -⟩, -⟩ := R.velocity 0 v hv
    simp only [initialGas, h] at hg
    cases hg

/-- C87 is false: with a mechanism that cannot be loaded, `cj_speed` with multiprocessing raises and leaves its pool
open, in every process. -/
theorem C87_missing_mechanism_violated (hf : Fair env.collect) {P T : ℝ} {species : ct.Species} {mechanism : String}
    {returnR returnState : Bool} {e : PyErr} (h : ct.solution mechanism "" = .error e) (w : Proc ct) :
    ∃ e' w', cjSpeed env true P T species mechanism returnR returnState w = some (.error e', w') ∧
      w'.pools = w.nextPool :: w.pools := by
  have hno : ∀ l, SD.refineLoop env.collect (SD.overRatio ct T P species mechanism) 0 4 1.5 2 none 0 ≠ .ok l := by
    intro l hl
    obtain ⟨r1, -, -, -, h1, -⟩ := refineLoop_four hl
    obtain ⟨e', he⟩ := raising_grid (T := T) (P := P) (species := species) hf h
    rw [h1] at he
    cases he
  have hr := cjSpeed_run (env := env) true T P species mechanism returnR returnState w
  simp only [collector, if_true] at hr
  obtain ⟨e', hv⟩ | ⟨s, hv⟩ := py_cases (SD.cjSpeed ct env.collect P T species mechanism returnR returnState)
  · rw [hv] at hr
    obtain ⟨w', h1, -, -, -, hp⟩ := hr
    exact ⟨e', w', h1, hp fun ⟨l, hl⟩ => hno l hl⟩
  · simp only [SD.cjSpeed, bind_eq_ok] at hv
    obtain ⟨l, hl, -⟩ := hv
    exact absurd hl (hno l)

/-- C87 is false: `n` such calls, each exception caught by the user, leave `n` pools open. -/
theorem C87_pools_accumulate_violated (hf : Fair env.collect) {P T : ℝ} {species : ct.Species} {mechanism : String}
    {returnR returnState : Bool} {e : PyErr} (h : ct.solution mechanism "" = .error e) (n : ℕ) (w : Proc ct) :
    (history (List.replicate n (env, .cjSpeed true P T species mechanism returnR returnState)) w).pools.length =
      w.pools.length + n := by
  induction n generalizing w with
  | zero => rfl
  | succ n ih =>
    obtain ⟨e', w', h1, hp⟩ := C87_missing_mechanism_violated (env := env) hf (P := P) (T := T) (species := species)
      (returnR := returnR) (returnState := returnState) h w
    have : history (List.replicate (n + 1) (env, .cjSpeed true P T species mechanism returnR returnState)) w =
        history (List.replicate n (env, .cjSpeed true P T species mechanism returnR returnState)) w' := by
      rw [List.replicate_succ]
      simp only [history, List.foldl_cons, Call.after, ran_eq h1]
    rw [this, ih, hp, List.length_cons]
    omega

/-- A Cantera without mechanism files. -/
noncomputable def noMechanisms : Cantera := { tvGas exP exH with solution := fun _ _ => .error (.valueError "no such file") }

/-- The hypotheses of C87 are met, and three failed calls leave three pools. -/
example : (history (List.replicate 3 (exEnv noMechanisms, .cjSpeed true 100000 300 () "gri31.cti" false false))
    ⟨[], [], 0, 0⟩).pools.length = 3 :=
  C87_pools_accumulate_violated (env := exEnv noMechanisms) reversed_fair rfl 3 _

/-! ### C88: warnings -/

open Classical in
/-- How many of the 21 density ratios from `lo` to `hi` have an evaluation that ran out of iterations. -/
noncomputable def outOfIterations (ct : Cantera) (P T : ℝ) (species : ct.Species) (mechanism : String) (lo hi : ℝ) : ℕ :=
  ((List.range 21).filter fun i : ℕ =>
    decide (∃ o, CJAt ct P T species mechanism (lo + i * ((hi - lo) / 20)) o ∧ o.warned = true)).length

theorem warns_iff {P T : ℝ} {species : ct.Species} {mechanism : String} {r : ℝ} :
    warns ct T P species mechanism r = true ↔ ∃ o, CJAt ct P T species mechanism r o ∧ o.warned = true := by
  unfold warns
  constructor
  · intro h
    obtain ⟨e, he⟩ | ⟨o, ho⟩ := py_cases (evaluate ct T P species mechanism r)
    · rw [he] at h; cases h
    · rw [ho] at h
      simp only [evaluate, bind_eq_ok] at ho
      obtain ⟨g, hg, g', hg', ho⟩ := ho
      rw [hg, Except.ok.injEq] at hg'
      subst hg'
      exact ⟨o, CJAt_iff.mpr ⟨g, hg, ho⟩, h⟩
  · rintro ⟨o, ho, h⟩
    obtain ⟨g, hg, ho⟩ := CJAt_iff.mp ho
    simp only [evaluate, hg, ok_bind, ho, h]

theorem gridWarnings_serial {P T : ℝ} {species : ct.Species} {mechanism : String} {lo hi : ℝ} :
    gridWarnings ct false T P species mechanism lo hi = outOfIterations ct P T species mechanism lo hi := by
  classical
  unfold gridWarnings outOfIterations linspace
  rw [if_neg (by simp), List.countP_map, List.countP_eq_length_filter]
  congr 1
  apply List.filter_congr
  intro i _
  rw [Bool.eq_iff_iff, decide_eq_true_iff]
  exact warns_iff

theorem rounds_speed {collect : Collect} {P T : ℝ} {species : ct.Species} {mechanism : String}
    {returnR returnState : Bool} {s : Speed ct} {r1 r2 r3 r4 : Refined}
    (h : SD.cjSpeed ct collect P T species mechanism returnR returnState = .ok s)
    (hr : Rounds (SD.refine collect (SD.overRatio ct T P species mechanism)) r1 r2 r3 r4) :
    s.speed = r4.fit.a * r4.ratio ^ 2 + r4.fit.b * r4.ratio + r4.fit.c := by
  simp only [SD.cjSpeed, bind_eq_ok] at h
  obtain ⟨l, hl, h⟩ := h
  obtain ⟨t1, t2, t3, t4, h1, h2, h3, h4, rfl⟩ := refineLoop_four hl
  obtain ⟨k1, k2, k3, k4⟩ := hr
  rw [k1, Except.ok.injEq] at h1
  subst h1
  rw [show SD.refine _ _ (r1.ratio * (1 - 0.001)) (r1.ratio * (1 + 0.001)) = _ from k2, Except.ok.injEq] at h2
  subst h2
  rw [show SD.refine _ _ (r2.ratio * (1 - 0.001)) (r2.ratio * (1 + 0.001)) = _ from k3, Except.ok.injEq] at h3
  subst h3
  rw [show SD.refine _ _ (r3.ratio * (1 - 0.001)) (r3.ratio * (1 + 0.001)) = _ from k4, Except.ok.injEq] at h4
  subst h4
  simp only [bind_eq_ok, Except.ok.injEq] at h
  obtain ⟨st, -, rfl⟩ := h
  rfl

open Classical in
/-- C88 (partial: without multiprocessing): the number of warnings issued by `cj_speed` is the number of `cj_state`
calculations, on the four grids and (if the state is asked for) at the final vertex, that ran out of
iterations. -/
theorem C88_serial_partial {P T : ℝ} {species : ct.Species} {mechanism : String} {returnR returnState : Bool}
    {w w' : Proc ct} {s : SpeedRef}
    (h : cjSpeed env false P T species mechanism returnR returnState w = some (.ok s, w')) :
    ∃ v1 f1 x1 v2 f2 x2 v3 f3 x3 v4 f4 x4,
      Refinement ct P T species mechanism 1.5 2 v1 f1 x1 ∧
      Refinement ct P T species mechanism (0.999 * x1) (1.001 * x1) v2 f2 x2 ∧
      Refinement ct P T species mechanism (0.999 * x2) (1.001 * x2) v3 f3 x3 ∧
      Refinement ct P T species mechanism (0.999 * x3) (1.001 * x3) v4 f4 x4 ∧
      s.speed = f4.a * x4 ^ 2 + f4.b * x4 + f4.c ∧
      w'.warnings = w.warnings + (outOfIterations ct P T species mechanism 1.5 2 +
        outOfIterations ct P T species mechanism (0.999 * x1) (1.001 * x1) +
        outOfIterations ct P T species mechanism (0.999 * x2) (1.001 * x2) +
        outOfIterations ct P T species mechanism (0.999 * x3) (1.001 * x3) +
        if returnState = true ∧ ∃ o, CJAt ct P T species mechanism x4 o ∧ o.warned = true then 1 else 0) := by
  have hr := cjSpeed_run (env := env) false T P species mechanism returnR returnState w
  obtain ⟨e, hv⟩ | ⟨s', hv⟩ := py_cases (SD.cjSpeed ct (collector env false) P T species mechanism returnR returnState)
  · rw [hv] at hr
    obtain ⟨w1, h1, -⟩ := hr
    rw [h] at h1
    cases h1
  · rw [hv] at hr
    obtain ⟨r1, r2, r3, r4, ref, w1, rounds, h1, -, -, -, hw, -⟩ := hr
    rw [h] at h1
    cases h1
    have hc : Fair (collector env false) := serial_fair
    obtain ⟨v1, R1⟩ := refine_refinement hc rounds.first
    obtain ⟨v2, R2⟩ := refine_refinement hc rounds.second
    obtain ⟨v3, R3⟩ := refine_refinement hc rounds.third
    obtain ⟨v4, R4⟩ := refine_refinement hc rounds.fourth
    have e : ∀ r : Refined, (around r).1 = 0.999 * r.ratio ∧ (around r).2 = 1.001 * r.ratio :=
      fun r => ⟨by simp only [around]; ring, by simp only [around]; ring⟩
    simp only [gridWarnings_serial, (e _).1, (e _).2, Bool.and_eq_true, warns_iff] at R2 R3 R4 hw
    have hs := rounds_speed hv rounds
    exact ⟨v1, _, _, v2, _, _, v3, _, _, v4, _, _, R1, R2, R3, R4, hs, hw⟩

/-- C88 (partial: without multiprocessing): so if no warning is issued, all the velocities the speed rests on are
converged ones. -/
theorem C88_silent_serial_partial {P T : ℝ} {species : ct.Species} {mechanism : String} {returnR returnState : Bool}
    {w w' : Proc ct} {s : SpeedRef}
    (h : cjSpeed env false P T species mechanism returnR returnState w = some (.ok s, w'))
    (hw : w'.warnings = w.warnings) :
    ∃ v1 f1 x1 v2 f2 x2 v3 f3 x3 v4 f4 x4,
      Refinement ct P T species mechanism 1.5 2 v1 f1 x1 ∧
      Refinement ct P T species mechanism (0.999 * x1) (1.001 * x1) v2 f2 x2 ∧
      Refinement ct P T species mechanism (0.999 * x2) (1.001 * x2) v3 f3 x3 ∧
      Refinement ct P T species mechanism (0.999 * x3) (1.001 * x3) v4 f4 x4 ∧
      s.speed = f4.a * x4 ^ 2 + f4.b * x4 + f4.c ∧ ∀ i : ℕ, i < 21 →
      (∃ o, CJAt ct P T species mechanism (1.5 + i * ((2 - 1.5) / 20)) o ∧ o.warned = false) ∧
      (∀ x ∈ [x1, x2, x3], ∃ o,
        CJAt ct P T species mechanism (0.999 * x + i * ((1.001 * x - 0.999 * x) / 20)) o ∧ o.warned = false) ∧
      (returnState = true → ∀ o, CJAt ct P T species mechanism x4 o → o.warned = false) := by
  obtain ⟨v1, f1, x1, v2, f2, x2, v3, f3, x3, v4, f4, x4, R1, R2, R3, R4, hsp, hn⟩ := C88_serial_partial h
  have key : ∀ {lo hi : ℝ} {vel : List ℝ} {fit : Fit} {x : ℝ}, Refinement ct P T species mechanism lo hi vel fit x →
      outOfIterations ct P T species mechanism lo hi = 0 → ∀ i : ℕ, i < 21 →
      ∃ o, CJAt ct P T species mechanism (lo + i * ((hi - lo) / 20)) o ∧ o.warned = false := by
    classical
    intro lo hi vel fit x R h0 i hi'
    obtain ⟨v, hv⟩ : ∃ v, vel[i]? = some v := ⟨_, List.getElem?_eq_getElem (by rw [R.length]; exact hi')⟩
    obtain ⟨o, ho, -⟩ := R.velocity i v hv
    refine ⟨o, ho, ?_⟩
    cases hb : o.warned with
    | false => rfl
    | true =>
      unfold outOfIterations at h0
      rw [List.length_eq_zero_iff, List.filter_eq_nil_iff] at h0
      exact absurd (decide_eq_true ⟨o, ho, hb⟩) (h0 i (List.mem_range.mpr hi'))
  rw [hn] at hw
  have h1 : outOfIterations ct P T species mechanism 1.5 2 = 0 := by omega
  have h2 : outOfIterations ct P T species mechanism (0.999 * x1) (1.001 * x1) = 0 := by omega
  have h3 : outOfIterations ct P T species mechanism (0.999 * x2) (1.001 * x2) = 0 := by omega
  have h4 : outOfIterations ct P T species mechanism (0.999 * x3) (1.001 * x3) = 0 := by omega
  refine ⟨v1, f1, x1, v2, f2, x2, v3, f3, x3, v4, f4, x4, R1, R2, R3, R4, hsp, fun i hi => ⟨key R1 h1 i hi, ?_, ?_⟩⟩
  · simp only [List.mem_cons, List.not_mem_nil, or_false]
    rintro x (rfl | rfl | rfl)
    · exact key R2 h2 i hi
    · exact key R3 h3 i hi
    · exact key R4 h4 i hi
  · intro hs o ho
    cases hb : o.warned with
    | false => rfl
    | true =>
      rw [if_pos ⟨hs, o, ho, hb⟩] at hw
      omega

/-- C88 is false with multiprocessing: whatever the evaluations on the grids do, no warning is issued in the calling
process for them: only the calculation of the state at the end can issue one. -/
theorem C88_parallel {P T : ℝ} {species : ct.Species} {mechanism : String} {returnR returnState : Bool}
    {w w' : Proc ct} {s : SpeedRef}
    (h : cjSpeed env true P T species mechanism returnR returnState w = some (.ok s, w')) :
    w.warnings ≤ w'.warnings ∧ w'.warnings ≤ w.warnings + (if returnState = true then 1 else 0) := by
  have hr := cjSpeed_run (env := env) true T P species mechanism returnR returnState w
  obtain ⟨e, hv⟩ | ⟨s', hv⟩ := py_cases (SD.cjSpeed ct (collector env true) P T species mechanism returnR returnState)
  · rw [hv] at hr
    obtain ⟨w1, h1, -⟩ := hr
    rw [h] at h1
    cases h1
  · rw [hv] at hr
    obtain ⟨r1, r2, r3, r4, ref, w1, rounds, h1, -, -, -, hw, -⟩ := hr
    rw [h] at h1
    cases h1
    rw [hw]
    simp only [gridWarnings, if_true, Bool.and_eq_true]
    refine ⟨by omega, ?_⟩
    split_ifs with h1 h2
    · omega
    · exact absurd h1.1 h2
    · omega
    · omega

/-- The gas whose evaluations all run out of iterations. -/
noncomputable abbrev slowGas : Cantera := tvGas slowP slowH

theorem slow_speed {collect : Collect} (hf : Fair collect) (P : ℝ) {T : ℝ} (hT : T ≤ 1000) (mechanism : String) :
    SD.cjSpeed slowGas collect P T () mechanism false false = .ok ⟨2000, none, none⟩ := by
  unfold SD.cjSpeed
  rw [(parabola_loop (ct := slowGas) (P := P) (T := T) (species := ()) (mechanism := mechanism) hf (a := 1000)
    (b := -3600) (c := 5240) (by norm_num) (by norm_num) (slow_hyp (tvGas_isTV slowP slowH) hT)).1]
  simp only [ok_bind, stateAt, Bool.false_eq_true, if_false, Except.ok.injEq]
  congr 1
  norm_num

/-- C88 is false: on this gas none of the evaluations converges; evaluated in parallel, the speed of 2000 m/s is
returned without a warning. -/
theorem C88_unreported_violated (env : Env slowGas) (hf : Fair env.collect) (P : ℝ) {T : ℝ} (hT : T ≤ 1000)
    (mechanism : String) (w : Proc slowGas) :
    (∀ r, 1 < r → ∀ o, CJAt slowGas P T () mechanism r o → o.warned = true) ∧
      ∃ w', cjSpeed env true P T () mechanism false false w = some (.ok ⟨2000, none, none⟩, w') ∧
        w'.warnings = w.warnings := by
  refine ⟨fun r hr o ho => ?_, ?_⟩
  · obtain ⟨g, hg, ho⟩ := ho
    obtain ⟨g', hg', h⟩ := slow_at (ct := slowGas) (P := P) (T := T) (species := ()) (mechanism := mechanism)
      (tvGas_isTV slowP slowH) hT hr
    rw [hg, Except.ok.injEq] at hg'
    subst hg'
    rw [ho, Option.some.injEq, Except.ok.injEq] at h
    rw [h]
  · obtain ⟨r, w', h, -, -, hs⟩ := C86_cj_speed (env := env) true P T () mechanism false false w
    obtain ⟨ref, rfl, hn, -⟩ := hs _ (slow_speed hf P hT mechanism)
    obtain rfl := hn rfl
    have := C88_parallel h
    refine ⟨w', h, ?_⟩
    simp only [Bool.false_eq_true, if_false] at this
    omega

theorem slow_ratio {mk : ℝ → ℝ → ct.Gas} (H : IsTV ct mk slowP slowH) {P T : ℝ} {species : ct.Species}
    {mechanism : String} (hT : T ≤ 1000) {lo hi : ℝ} (h1 : 1 < lo) (h2 : lo < hi) {r : Refined}
    (hr : SD.refine serial (SD.overRatio ct T P species mechanism) lo hi = .ok r) : r.ratio = 1.8 := by
  rw [refine_eval serial_fair overRatio_index (velocities_of (f := fun r => 1000 * r ^ 2 + (-3600) * r + 5240)
    fun r hr n => ?_), fitAt_parabola (by norm_num) (by linarith) h2, Except.ok.injEq] at hr
  · rw [← hr]; norm_num
  · refine overRatio_eq_ok.mpr ⟨_, slow_at H hT (by linarith [(linspace_range h2.le hr).1]), ?_⟩
    simp only [exV, Prod.mk.injEq, true_and]
    ring

/-- Without multiprocessing the same call issues 84 warnings. -/
example (env : Env slowGas) (P : ℝ) {T : ℝ} (hT : T ≤ 1000) (mechanism : String) (w : Proc slowGas) :
    ∃ w', cjSpeed env false P T () mechanism false false w = some (.ok ⟨2000, none, none⟩, w') ∧
      w'.warnings = w.warnings + 84 := by
  obtain ⟨r, w', h, -, -, hs⟩ := C86_cj_speed (env := env) false P T () mechanism false false w
  obtain ⟨ref, rfl, hn, -⟩ := hs _ (slow_speed serial_fair P hT mechanism)
  obtain rfl := hn rfl
  refine ⟨w', h, ?_⟩
  have hr := cjSpeed_run (env := env) false T P () mechanism false false w
  simp only [collector, Bool.false_eq_true, if_false, slow_speed serial_fair P hT mechanism] at hr
  obtain ⟨r1, r2, r3, r4, ref, w1, rounds, h1, -, -, -, hw, -⟩ := hr
  rw [h, Option.some.injEq, Prod.mk.injEq] at h1
  obtain ⟨-, rfl⟩ := h1
  have all : ∀ lo hi : ℝ, 1 < lo → lo ≤ hi → gridWarnings slowGas false T P () mechanism lo hi = 21 := by
    intro lo hi h1 h2
    unfold gridWarnings
    rw [if_neg (by simp), ← linspace_length (lo := lo) (hi := hi), List.countP_eq_length]
    intro r hr
    exact warns_iff.mpr ⟨_, slow_at (tvGas_isTV slowP slowH) hT (by linarith [(linspace_range h2 hr).1]), rfl⟩
  have q1 := slow_ratio (tvGas_isTV slowP slowH) hT (by norm_num) (by norm_num) rounds.first
  have k := rounds.second
  simp only [around, q1] at k
  have q2 := slow_ratio (tvGas_isTV slowP slowH) hT (by norm_num) (by norm_num) k
  have k := rounds.third
  simp only [around, q2] at k
  have q3 := slow_ratio (tvGas_isTV slowP slowH) hT (by norm_num) (by norm_num) k
  rw [hw]
  simp only [around, q1, q2, q3, Bool.false_and, Bool.false_eq_true, if_false]
  rw [all 1.5 2 (by norm_num) (by norm_num), all _ _ (by norm_num) (by norm_num)]

end Pypbomb.Process
