/-
Code that creates the gas objects it works on.
-/
import Verif.Lemmas.Proc

namespace Pypbomb.Process

open SD

variable {ct : Cantera} {α β γ : Type} {w w' w'' : Proc ct} {a b : ℕ} {g gb : ct.Gas} {env : Env ct}

/-- Between `w` and `w'` new objects were created; the old ones are in the same state, and the pools are the same. -/
structure Grown (w w' : Proc ct) : Prop where
  gases : w.gases <+: w'.gases
  pools : w'.pools = w.pools
  nextPool : w'.nextPool = w.nextPool

theorem Grown.refl (w : Proc ct) : Grown w w := ⟨List.prefix_rfl, rfl, rfl⟩

theorem Grown.trans (h : Grown w w') (h' : Grown w' w'') : Grown w w'' :=
  ⟨h.gases.trans h'.gases, h'.pools.trans h.pools, h'.nextPool.trans h.nextPool⟩

theorem Grown.length (h : Grown w w') : w.gases.length ≤ w'.gases.length := h.gases.length_le

theorem Grown.getElem (h : Grown w w') (hg : w.gases[a]? = some g) : w'.gases[a]? = some g := by
  obtain ⟨l, hl⟩ := h.gases
  rw [← hl, List.getElem?_append_left (List.getElem?_eq_some_iff.mp hg).1, hg]

/-- A new object. -/
def Proc.alloc (w : Proc ct) (g : ct.Gas) : Proc ct := { w with gases := w.gases ++ [g] }

theorem grown_alloc (w : Proc ct) (g : ct.Gas) : Grown w (w.alloc g) := ⟨List.prefix_append _ _, rfl, rfl⟩

theorem alloc_self (w : Proc ct) (g : ct.Gas) : (w.alloc g).gases[w.gases.length]? = some g := by
  simp [Proc.alloc]

theorem alloc_length (w : Proc ct) (g : ct.Gas) : (w.alloc g).gases.length = w.gases.length + 1 := by
  simp [Proc.alloc]

theorem alloc_put (w : Proc ct) (g g' : ct.Gas) : (w.alloc g).put w.gases.length g' = w.alloc g' := by
  simp [Proc.alloc, Proc.put]

theorem Grown.put (h : Grown w w') (ha : w.gases.length ≤ a) (g : ct.Gas) : Grown w (w'.put a g) := by
  refine ⟨?_, h.pools, h.nextPool⟩
  obtain ⟨l, hl⟩ := h.gases
  refine ⟨l.set (a - w.gases.length) g, ?_⟩
  simp only [Proc.put]
  rw [← hl, List.set_append_right _ _ ha]

theorem Grown.after (h : Grown w w') (ha : w.gases.length ≤ a) (g : ct.Gas) (c : Bool) : Grown w (w'.after a g c) :=
  ⟨(h.put ha g).gases, h.pools, h.nextPool⟩

theorem py_cases (x : Py α) : (∃ e, x = .error e) ∨ ∃ y, x = .ok y := by cases x <;> simp

theorem new_run (mechanism phase : String) (w : Proc ct) :
    new mechanism phase w = match ct.solution mechanism phase with
      | .error e => some (.error e, w)
      | .ok g => some (.ok w.gases.length, w.alloc g) := by
  unfold new
  cases ct.solution mechanism phase <;> rfl

/-- The code `m` returns or raises what `v` says; it creates objects, leaves those that exist as they are, leaves the
pools as they are and, if it returns, has issued `k` warnings. -/
def Does (m : Act ct α) (w : Proc ct) (v : Py α) (k : ℕ) : Prop :=
  match v with
  | .ok x => ∃ w', m w = some (.ok x, w') ∧ Grown w w' ∧ w'.warnings = w.warnings + k
  | .error e => ∃ w', m w = some (.error e, w') ∧ Grown w w'

theorem Does.pure (x : α) (w : Proc ct) : Does (pure x) w (.ok x) 0 := ⟨w, rfl, Grown.refl w, rfl⟩

theorem Does.lift (x : Py α) (w : Proc ct) : Does (lift x) w x 0 := by
  cases x with
  | error e => exact ⟨w, rfl, Grown.refl w⟩
  | ok x => exact ⟨w, rfl, Grown.refl w, rfl⟩

theorem Does.bind {m : Act ct α} {f : α → Act ct β} {v : Py α} {u : α → Py β} {k k' : ℕ} (hm : Does m w v k)
    (hf : ∀ x w', v = .ok x → Does (f x) w' (u x) k') : Does (m >>= f) w (v >>= u) (k + k') := by
  cases v with
  | error e =>
    obtain ⟨w', h, hg⟩ := hm
    exact ⟨w', bind_of_error h, hg⟩
  | ok x =>
    obtain ⟨w', h, hg, hk⟩ := hm
    have := hf x w' rfl
    rw [ok_bind]
    unfold Does at this ⊢
    rw [bind_of_ok h]
    cases hu : u x with
    | error e =>
      rw [hu] at this
      obtain ⟨w'', h', hg'⟩ := this
      exact ⟨w'', h', hg.trans hg'⟩
    | ok y =>
      rw [hu] at this
      obtain ⟨w'', h', hg', hk'⟩ := this
      exact ⟨w'', h', hg.trans hg', by rw [hk', hk, Nat.add_assoc]⟩

theorem Does.result {m : Act ct α} {v : Py α} {k : ℕ} (h : Does m w v k) : resultIn m w = v := by
  unfold resultIn
  cases v with
  | error e => obtain ⟨w', h, -⟩ := h; rw [h]
  | ok x => obtain ⟨w', h, -⟩ := h; rw [h]

/-! ### One evaluation -/

/-- `initial_gas` and `working_gas` of `_calculate_over_ratio_range`: two objects are created and set to the same state
before `cj_state` runs. -/
noncomputable def evaluate (ct : Cantera) (T P : ℝ) (species : ct.Species) (mechanism : String) (ratio : ℝ) :
    Py (CJOut ct) := do
  let initial ← initialGas ct T P species mechanism
  let working ← initialGas ct T P species mechanism
  cjStateDefault ct working initial 1e-4 1e-4 ratio

/-- Whether the evaluation at this ratio ends with the warning. -/
noncomputable def warns (ct : Cantera) (T P : ℝ) (species : ct.Species) (mechanism : String) (ratio : ℝ) : Bool :=
  match evaluate ct T P species mechanism ratio with
  | .ok o => o.warned
  | .error _ => false

theorem overRatio_does (T P : ℝ) (species : ct.Species) (mechanism : String) (number : ℕ) (ratio : ℝ) (w : Proc ct) :
    Does (Process.overRatio env T P species mechanism number ratio) w
      (SD.overRatio ct T P species mechanism number ratio)
      (if warns ct T P species mechanism ratio = true then 1 else 0) := by
  unfold Process.overRatio SD.overRatio warns evaluate initialGas
  have n1 := new_run mechanism "" w
  cases hs : ct.solution mechanism "" with
  | error e =>
    rw [hs] at n1
    exact ⟨w, bind_of_error n1, Grown.refl w⟩
  | ok g0 =>
  rw [hs] at n1
  have t1 := setTPX_run (env := env) (alloc_self w g0) T P species
  cases ht : ct.setTPX g0 T P species with
  | error e =>
    simp only [ht, alloc_put] at t1
    simp only [ok_bind, ht]
    exact ⟨_, (bind_of_ok n1).trans (bind_of_error t1), grown_alloc _ _⟩
  | ok g1 =>
  simp only [ht, alloc_put] at t1
  have n2 := new_run mechanism "" (w.alloc g1)
  rw [hs] at n2
  have t2 := setTPX_run (env := env) (alloc_self (w.alloc g1) g0) T P species
  simp only [ht, alloc_put] at t2
  have hi : ((w.alloc g1).alloc g1).gases[w.gases.length]? = some g1 :=
    (grown_alloc _ _).getElem (alloc_self w g1)
  have hne : w.gases.length ≠ (w.alloc g1).gases.length := by rw [alloc_length]; omega
  have c := cjState_run (env := env) (alloc_self (w.alloc g1) g1) hi hne 1e-4 1e-4 ratio
  have hgr : Grown w ((w.alloc g1).alloc g1) := (grown_alloc _ _).trans (grown_alloc _ _)
  have hle : w.gases.length ≤ (w.alloc g1).gases.length := by rw [alloc_length]; omega
  simp only [ok_bind, ht]
  cases hc : cjStateDefault ct g1 g1 1e-4 1e-4 ratio with
  | error e =>
    rw [hc] at c
    obtain ⟨g', c⟩ := c
    exact ⟨_, (bind_of_ok n1).trans <| (bind_of_ok t1).trans <| (bind_of_ok n2).trans <| (bind_of_ok t2).trans <|
      bind_of_error c, hgr.put hle _⟩
  | ok o =>
    rw [hc] at c
    exact ⟨_, (bind_of_ok n1).trans <| (bind_of_ok t1).trans <| (bind_of_ok n2).trans <| (bind_of_ok t2).trans <|
      bind_of_ok c, hgr.after hle _ _, rfl⟩

/-! ### One refinement -/

theorem runAll_does {ι : Type} (task : ι → Act ct α) (v : ι → Py α) (k : ι → ℕ) (h : ∀ i w, Does (task i) w (v i) (k i))
    (l : List ι) (w : Proc ct) :
    Does (runAll (l.map task)) w (Flange.forEach id (l.map v)) (l.map k).sum := by
  induction l generalizing w with
  | nil => exact Does.pure _ _
  | cons i l ih =>
    simp only [List.map_cons, runAll, Flange.forEach, id, List.sum_cons]
    refine Does.bind (h i w) fun x w' _ => ?_
    rw [← Nat.add_zero (l.map k).sum]
    exact Does.bind (ih w') fun y w'' _ => Does.pure _ _

/-- How the results of the evaluations come back. -/
def collector (env : Env ct) (parallel : Bool) : Collect := if parallel = true then env.collect else serial

/-- The number of warnings issued in this process in one refinement. -/
noncomputable def gridWarnings (ct : Cantera) (parallel : Bool) (T P : ℝ) (species : ct.Species) (mechanism : String)
    (lo hi : ℝ) : ℕ :=
  if parallel = true then 0 else (linspace lo hi).countP (warns ct T P species mechanism)

theorem starmap_eq (T P : ℝ) (species : ct.Species) (mechanism : String) (n : ℕ) (l : List (ℝ × ℕ)) :
    starmap env n (l.map fun x => Process.overRatio env T P species mechanism x.2 x.1) =
      lift (env.collect (l.map fun x => SD.overRatio ct T P species mechanism x.2 x.1)) := by
  unfold starmap
  congr 2
  apply List.ext_getElem
  · simp
  · intro i h1 h2
    simp only [List.getElem_map, List.getElem_zipIdx]
    exact (overRatio_does T P species mechanism _ _ _).result

theorem sum_warns (p : ℝ → Bool) (l : List ℝ) (n : ℕ) :
    ((l.zipIdx n).map fun x => if p x.1 = true then 1 else 0).sum = l.countP p := by
  induction l generalizing n with
  | nil => rfl
  | cons x l ih =>
    simp only [List.zipIdx_cons, List.map_cons, List.sum_cons, ih, List.countP_cons]
    omega

theorem refine_does (parallel : Bool) (T P : ℝ) (species : ct.Species) (mechanism : String) (n : ℕ) (lo hi : ℝ)
    (w : Proc ct) :
    Does (Process.refine env parallel T P species mechanism n lo hi) w
      (SD.refine (collector env parallel) (SD.overRatio ct T P species mechanism) lo hi)
      (gridWarnings ct parallel T P species mechanism lo hi) := by
  have tail : ∀ (res : List (ℕ × ℝ)) (w' : Proc ct), Does (do
      let fit ← lift (cjCurveFit ((linspace lo hi).zip ((sortResults res).map (·.2))))
      let r ← lift (pyDiv (-fit.b) (2 * fit.a))
      pure (⟨fit, r⟩ : Refined)) w' (do
      let fit ← cjCurveFit ((linspace lo hi).zip ((sortResults res).map (·.2)))
      let r ← pyDiv (-fit.b) (2 * fit.a)
      .ok ⟨fit, r⟩) 0 := fun res w' =>
    Does.bind (k := 0) (Does.lift _ _) fun fit w' _ => Does.bind (k := 0) (Does.lift _ _) fun r w' _ => Does.pure _ _
  unfold Process.refine SD.refine collector gridWarnings
  cases parallel with
  | true =>
    simp only [if_true]
    rw [starmap_eq]
    exact Does.bind (k := 0) (Does.lift _ _) fun res w' _ => tail res w'
  | false =>
    simp only [Bool.false_eq_true, if_false]
    rw [← sum_warns _ _ 0]
    have h := runAll_does (fun x : ℝ × ℕ => Process.overRatio env T P species mechanism x.2 x.1)
      (fun x => SD.overRatio ct T P species mechanism x.2 x.1)
      (fun x => if warns ct T P species mechanism x.1 = true then 1 else 0)
      (fun x w => overRatio_does T P species mechanism x.2 x.1 w) ((linspace lo hi).zipIdx) w
    generalize ((linspace lo hi).zipIdx.map fun x => if warns ct T P species mechanism x.1 = true then 1 else 0).sum =
      k at h ⊢
    exact Does.bind h fun res w' _ => tail res w'

/-! ### `cj_speed` -/

theorem refineLoop_step (parallel : Bool) (T P : ℝ) (species : ct.Species) (mechanism : String) (fuel n : ℕ)
    (lo hi : ℝ) (r : Refined) :
    Process.refineLoop env parallel T P species mechanism (fuel + 1) n lo hi r = (do
      let r' ← Process.refine env parallel T P species mechanism n lo hi
      Process.refineLoop env parallel T P species mechanism fuel (n + 1) (r'.ratio * (1 - 0.001))
        (r'.ratio * (1 + 0.001)) r') := by
  rw [Process.refineLoop]
  exact ite_pos (Or.inr (by norm_num))

theorem value_refineLoop_step (collect : Collect) (task : ℕ → ℝ → Py (ℕ × ℝ)) (fuel : ℕ) (lo hi : ℝ)
    (last : Option Refined) (n : ℕ) :
    SD.refineLoop collect task 0 (fuel + 1) lo hi last n = (do
      let r ← SD.refine collect task lo hi
      SD.refineLoop collect task 0 fuel (r.ratio * (1 - 0.001)) (r.ratio * (1 + 0.001)) (some r) (n + 1)) := by
  rw [SD.refineLoop]
  exact ite_pos (Or.inr (by norm_num))

/-- The grid of a refinement around the vertex of the previous one. -/
noncomputable def around (r : Refined) : ℝ × ℝ := (r.ratio * (1 - 0.001), r.ratio * (1 + 0.001))

/-- Each of the four refinements ends with the given result. -/
structure Rounds (refine : ℝ → ℝ → Py Refined) (r1 r2 r3 r4 : Refined) : Prop where
  first : refine 1.5 2 = .ok r1
  second : refine (around r1).1 (around r1).2 = .ok r2
  third : refine (around r2).1 (around r2).2 = .ok r3
  fourth : refine (around r3).1 (around r3).2 = .ok r4

theorem refineLoop_run (parallel : Bool) (T P : ℝ) (species : ct.Species) (mechanism : String) (r0 : Refined)
    (w : Proc ct) :
    match SD.refineLoop (collector env parallel) (SD.overRatio ct T P species mechanism) 0 4 1.5 2 none 0 with
    | .ok l => ∃ r1 r2 r3 r4 w', l = (some r4, 4) ∧
        Rounds (SD.refine (collector env parallel) (SD.overRatio ct T P species mechanism)) r1 r2 r3 r4 ∧
        Process.refineLoop env parallel T P species mechanism 4 1 1.5 2 r0 w = some (.ok r4, w') ∧ Grown w w' ∧
        w'.warnings = w.warnings + (gridWarnings ct parallel T P species mechanism 1.5 2 +
          gridWarnings ct parallel T P species mechanism (around r1).1 (around r1).2 +
          gridWarnings ct parallel T P species mechanism (around r2).1 (around r2).2 +
          gridWarnings ct parallel T P species mechanism (around r3).1 (around r3).2)
    | .error e => ∃ w', Process.refineLoop env parallel T P species mechanism 4 1 1.5 2 r0 w = some (.error e, w') ∧
        Grown w w' := by
  simp only [refineLoop_step, value_refineLoop_step]
  have h1 := refine_does (env := env) parallel T P species mechanism 1 1.5 2 w
  cases e1 : SD.refine (collector env parallel) (SD.overRatio ct T P species mechanism) 1.5 2 with
  | error e =>
    rw [e1] at h1
    obtain ⟨w1, h1, g1⟩ := h1
    exact ⟨w1, bind_of_error h1, g1⟩
  | ok r1 =>
  rw [e1] at h1
  obtain ⟨w1, h1, g1, k1⟩ := h1
  simp only [ok_bind, bind_of_ok h1]
  have h2 := refine_does (env := env) parallel T P species mechanism 2 (around r1).1 (around r1).2 w1
  cases e2 : SD.refine (collector env parallel) (SD.overRatio ct T P species mechanism) (around r1).1 (around r1).2 with
  | error e =>
    rw [e2] at h2
    obtain ⟨w2, h2, g2⟩ := h2
    simp only [around] at e2 h2
    rw [e2]
    exact ⟨w2, bind_of_error h2, g1.trans g2⟩
  | ok r2 =>
  have e2' := e2
  rw [e2] at h2
  obtain ⟨w2, h2, g2, k2⟩ := h2
  simp only [around] at e2 h2
  rw [e2, bind_of_ok h2]
  simp only [ok_bind]
  have h3 := refine_does (env := env) parallel T P species mechanism 3 (around r2).1 (around r2).2 w2
  cases e3 : SD.refine (collector env parallel) (SD.overRatio ct T P species mechanism) (around r2).1 (around r2).2 with
  | error e =>
    rw [e3] at h3
    obtain ⟨w3, h3, g3⟩ := h3
    simp only [around] at e3 h3
    rw [e3]
    exact ⟨w3, bind_of_error h3, (g1.trans g2).trans g3⟩
  | ok r3 =>
  have e3' := e3
  rw [e3] at h3
  obtain ⟨w3, h3, g3, k3⟩ := h3
  simp only [around] at e3 h3
  rw [e3, bind_of_ok h3]
  simp only [ok_bind]
  have h4 := refine_does (env := env) parallel T P species mechanism 4 (around r3).1 (around r3).2 w3
  cases e4 : SD.refine (collector env parallel) (SD.overRatio ct T P species mechanism) (around r3).1 (around r3).2 with
  | error e =>
    rw [e4] at h4
    obtain ⟨w4, h4, g4⟩ := h4
    simp only [around] at e4 h4
    rw [e4]
    exact ⟨w4, bind_of_error h4, ((g1.trans g2).trans g3).trans g4⟩
  | ok r4 =>
  have e4' := e4
  rw [e4] at h4
  obtain ⟨w4, h4, g4, k4⟩ := h4
  simp only [around] at e4 h4
  rw [e4, bind_of_ok h4]
  simp only [ok_bind, SD.refineLoop, Process.refineLoop]
  exact ⟨r1, r2, r3, r4, w4, rfl, ⟨e1, e2', e3', e4'⟩, rfl, ((g1.trans g2).trans g3).trans g4, by omega⟩

/-- The block of `cj_speed` that computes the state (sd.py:425-444). -/
noncomputable def stateBlock (env : Env ct) (T P : ℝ) (species : ct.Species) (mechanism : String) (ratio speed : ℝ)
    (rSquared : Option (Option ℝ)) : Act ct SpeedRef := do
  let initial ← new mechanism ""
  let working ← new mechanism ""
  setTPX env initial T P species
  setTPX env working T P species
  let _ ← cjState env working initial 1e-4 1e-4 ratio 500 500
  pure ⟨speed, rSquared, some working⟩

theorem stateBlock_run (T P : ℝ) (species : ct.Species) (mechanism : String) (ratio speed : ℝ)
    (rSquared : Option (Option ℝ)) (w : Proc ct) :
    match evaluate ct T P species mechanism ratio with
    | .ok o => ∃ w', stateBlock env T P species mechanism ratio speed rSquared w =
        some (.ok ⟨speed, rSquared, some (w.gases.length + 1)⟩, w') ∧ Grown w w' ∧
        w'.gases[w.gases.length + 1]? = some o.gas ∧
        w'.warnings = w.warnings + if warns ct T P species mechanism ratio = true then 1 else 0
    | .error e => ∃ w', stateBlock env T P species mechanism ratio speed rSquared w = some (.error e, w') ∧
        Grown w w' := by
  unfold stateBlock warns evaluate initialGas
  have n1 := new_run mechanism "" w
  obtain ⟨e, hs⟩ | ⟨g0, hs⟩ := py_cases (ct.solution mechanism "")
  · simp only [hs] at n1 ⊢
    exact ⟨w, bind_of_error n1, Grown.refl w⟩
  simp only [hs] at n1
  have n2 := new_run mechanism "" (w.alloc g0)
  rw [hs] at n2
  have hgr : Grown w ((w.alloc g0).alloc g0) := (grown_alloc _ _).trans (grown_alloc _ _)
  have hlen : ((w.alloc g0).alloc g0).gases.length = w.gases.length + 2 := by simp [Proc.alloc]
  have hi0 : ((w.alloc g0).alloc g0).gases[w.gases.length]? = some g0 := (grown_alloc _ _).getElem (alloc_self w g0)
  have hw0 : ((w.alloc g0).alloc g0).gases[w.gases.length + 1]? = some g0 := by
    have := alloc_self (w.alloc g0) g0
    rwa [alloc_length] at this
  have t1 := setTPX_run (env := env) hi0 T P species
  simp only [alloc_length] at n2
  obtain ⟨e, ht⟩ | ⟨g1, ht⟩ := py_cases (ct.setTPX g0 T P species)
  · simp only [ht] at t1
    simp only [hs, ok_bind, ht]
    exact ⟨_, (bind_of_ok n1).trans <| (bind_of_ok n2).trans <| bind_of_error t1, hgr.put le_rfl _⟩
  simp only [ht] at t1
  simp only [hs, ok_bind, ht]
  generalize hw1 : ((w.alloc g0).alloc g0).put w.gases.length g1 = w1 at t1
  have hg1 : Grown w w1 := hw1 ▸ hgr.put le_rfl _
  have hl1 : w1.gases.length = w.gases.length + 2 := by rw [← hw1, put_length, hlen]
  have hi1 : w1.gases[w.gases.length]? = some g1 := by rw [← hw1]; exact put_self (by omega)
  have hwk : w1.gases[w.gases.length + 1]? = some g0 := by rw [← hw1, put_other (by omega)]; exact hw0
  have t2 := setTPX_run (env := env) hwk T P species
  simp only [ht] at t2
  have hi2 : (w1.put (w.gases.length + 1) g1).gases[w.gases.length]? = some g1 := by
    rw [put_other (by omega)]; exact hi1
  have hl2 : w.gases.length + 1 < (w1.put (w.gases.length + 1) g1).gases.length := by rw [put_length]; omega
  have c := cjState_run (env := env) (put_self (w := w1) (g := g1) (a := w.gases.length + 1) (by omega)) hi2
    (by omega) 1e-4 1e-4 ratio
  obtain ⟨e, hc⟩ | ⟨o, hc⟩ := py_cases (cjStateDefault ct g1 g1 1e-4 1e-4 ratio)
  · rw [hc] at c
    obtain ⟨g', c⟩ := c
    simp only [hc]
    exact ⟨_, (bind_of_ok n1).trans <| (bind_of_ok n2).trans <| (bind_of_ok t1).trans <| (bind_of_ok t2).trans <|
      bind_of_error c, (hg1.put (by omega) _).put (by omega) _⟩
  · rw [hc] at c
    simp only [hc]
    refine ⟨_, (bind_of_ok n1).trans <| (bind_of_ok n2).trans <| (bind_of_ok t1).trans <| (bind_of_ok t2).trans <|
      bind_of_ok c, (hg1.put (by omega) _).after (by omega) _ _, after_self hl2 _, ?_⟩
    rw [← hw1]
    rfl

theorem stateAt_eq (T P : ℝ) (species : ct.Species) (mechanism : String) (ratio : ℝ) :
    stateAt ct T P species mechanism true ratio =
      (evaluate ct T P species mechanism ratio >>= fun o => .ok (some o.gas)) := by
  unfold stateAt evaluate
  simp only [if_true, py_bind_assoc]

/-- The state of the pools when `mp.Pool()` has been called (only if `parallel`). -/
def Proc.pooled (w : Proc ct) (parallel : Bool) : Proc ct :=
  if parallel = true then { w with pools := w.nextPool :: w.pools, nextPool := w.nextPool + 1 } else w

/-- `pool.close()`, if there is a pool. -/
def closing (parallel : Bool) (p : ℕ) : Act ct Unit := if parallel = true then closePool p else pure ()

/-- `mp.Pool()`, if asked for. -/
def opening (parallel : Bool) : Act ct ℕ := if parallel = true then openPool else pure 0

theorem cjSpeed_blocks (parallel : Bool) (T P : ℝ) (species : ct.Species) (mechanism : String)
    (returnR returnState : Bool) :
    Process.cjSpeed env parallel P T species mechanism returnR returnState = (opening parallel >>= fun pool =>
      Process.refineLoop env parallel T P species mechanism 4 1 1.5 2 ⟨⟨0, 0, 0, some 0⟩, 0⟩ >>= fun r =>
      closing parallel pool >>= fun _ =>
      if returnState = true then stateBlock env T P species mechanism r.ratio
        (r.fit.a * r.ratio ^ 2 + r.fit.b * r.ratio + r.fit.c) (if returnR = true then some r.fit.r2 else none)
      else pure ⟨r.fit.a * r.ratio ^ 2 + r.fit.b * r.ratio + r.fit.c, if returnR = true then some r.fit.r2 else none,
        none⟩) := by
  cases parallel <;> cases returnState <;> rfl

theorem opening_run (parallel : Bool) (w : Proc ct) :
    ∃ p, opening parallel w = some (.ok p, w.pooled parallel) ∧ (parallel = true → p = w.nextPool) := by
  cases parallel with
  | true => exact ⟨_, rfl, fun _ => rfl⟩
  | false => exact ⟨0, rfl, by simp⟩

theorem closing_run {parallel : Bool} {p : ℕ} (h : parallel = true → p = w.nextPool) (hg : Grown (w.pooled parallel) w') :
    closing parallel p w' = some (.ok (), { w' with pools := w.pools }) := by
  cases parallel with
  | true =>
    obtain rfl := h rfl
    have : w'.pools = w.nextPool :: w.pools := hg.pools
    simp [closing, closePool, this]
  | false =>
    have : w'.pools = w.pools := hg.pools
    simp only [closing, Bool.false_eq_true, if_false, ← this]
    rfl

/-- The outcome of `cj_speed`. -/
theorem cjSpeed_run (parallel : Bool) (T P : ℝ) (species : ct.Species) (mechanism : String)
    (returnR returnState : Bool) (w : Proc ct) :
    match SD.cjSpeed ct (collector env parallel) P T species mechanism returnR returnState with
    | .ok s => ∃ r1 r2 r3 r4 ref w',
        Rounds (SD.refine (collector env parallel) (SD.overRatio ct T P species mechanism)) r1 r2 r3 r4 ∧
        Process.cjSpeed env parallel P T species mechanism returnR returnState w =
          some (.ok ⟨s.speed, s.rSquared, ref⟩, w') ∧
        w.gases <+: w'.gases ∧ w'.pools = w.pools ∧ w'.nextPool = (w.pooled parallel).nextPool ∧
        w'.warnings = w.warnings + (gridWarnings ct parallel T P species mechanism 1.5 2 +
          gridWarnings ct parallel T P species mechanism (around r1).1 (around r1).2 +
          gridWarnings ct parallel T P species mechanism (around r2).1 (around r2).2 +
          gridWarnings ct parallel T P species mechanism (around r3).1 (around r3).2 +
          if (returnState && warns ct T P species mechanism r4.ratio) = true then 1 else 0) ∧
        match s.state with
        | none => ref = none
        | some g => ∃ a, ref = some a ∧ w.gases.length ≤ a ∧ w'.gases[a]? = some g
    | .error e => ∃ w', Process.cjSpeed env parallel P T species mechanism returnR returnState w =
          some (.error e, w') ∧
        w.gases <+: w'.gases ∧ w'.nextPool = (w.pooled parallel).nextPool ∧
        ((∃ l, SD.refineLoop (collector env parallel) (SD.overRatio ct T P species mechanism) 0 4 1.5 2 none 0 =
          .ok l) → w'.pools = w.pools) ∧
        ((¬∃ l, SD.refineLoop (collector env parallel) (SD.overRatio ct T P species mechanism) 0 4 1.5 2 none 0 =
          .ok l) → w'.pools = (w.pooled parallel).pools) := by
  rw [cjSpeed_blocks]
  obtain ⟨p, hopen, hp⟩ := opening_run parallel w
  have hg : (w.pooled parallel).gases = w.gases := by cases parallel <;> rfl
  have hwarn : (w.pooled parallel).warnings = w.warnings := by cases parallel <;> rfl
  have hr := refineLoop_run (env := env) parallel T P species mechanism ⟨⟨0, 0, 0, some 0⟩, 0⟩ (w.pooled parallel)
  unfold SD.cjSpeed
  obtain ⟨e, he⟩ | ⟨l, he⟩ := py_cases
    (SD.refineLoop (collector env parallel) (SD.overRatio ct T P species mechanism) 0 4 1.5 2 none 0)
  · rw [he] at hr
    obtain ⟨w', hr, gr⟩ := hr
    rw [he]
    refine ⟨w', (bind_of_ok hopen).trans (bind_of_error hr), hg ▸ gr.gases, gr.nextPool, ?_, fun _ => gr.pools⟩
    rintro ⟨l, hl⟩
    cases hl
  rw [he] at hr
  obtain ⟨r1, r2, r3, r4, w1, rfl, rounds, hr, gr, hw⟩ := hr
  have hclose := closing_run hp gr
  simp only [he, ok_bind]
  have hgr : w.gases <+: w1.gases := hg ▸ gr.gases
  cases returnState with
  | false =>
    simp only [stateAt, Bool.false_eq_true, if_false, ok_bind]
    refine ⟨r1, r2, r3, r4, none, _, rounds, (bind_of_ok hopen).trans <| (bind_of_ok hr).trans <| bind_of_ok hclose,
      hgr, rfl, gr.nextPool, ?_, rfl⟩
    simp only [Bool.false_and, Bool.false_eq_true, if_false]
    rw [hw, hwarn, Nat.add_zero]
  | true =>
    simp only [if_true]
    have hs := stateBlock_run (env := env) T P species mechanism r4.ratio
      (r4.fit.a * r4.ratio ^ 2 + r4.fit.b * r4.ratio + r4.fit.c) (if returnR = true then some r4.fit.r2 else none)
      { w1 with pools := w.pools }
    rw [stateAt_eq]
    obtain ⟨e, hev⟩ | ⟨o, hev⟩ := py_cases (evaluate ct T P species mechanism r4.ratio)
    · rw [hev] at hs
      obtain ⟨w2, hs, gs⟩ := hs
      simp only [hev]
      refine ⟨w2, (bind_of_ok hopen).trans <| (bind_of_ok hr).trans <| (bind_of_ok hclose).trans hs,
        hgr.trans gs.gases, gs.nextPool.trans gr.nextPool, fun _ => gs.pools, fun h => absurd ⟨_, rfl⟩ h⟩
    · rw [hev] at hs
      obtain ⟨w2, hs, gs, hst, hw2⟩ := hs
      simp only [hev, ok_bind]
      refine ⟨r1, r2, r3, r4, _, w2, rounds,
        (bind_of_ok hopen).trans <| (bind_of_ok hr).trans <| (bind_of_ok hclose).trans hs,
        hgr.trans gs.gases, gs.pools, gs.nextPool.trans gr.nextPool, ?_, _, rfl, ?_, hst⟩
      · rw [hw2]
        simp only [Bool.true_and]
        rw [hw, hwarn]
        omega
      · have := hgr.length_le
        simp only
        omega

end Pypbomb.Process
