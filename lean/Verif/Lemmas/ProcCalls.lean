/-
The functions of thermochem.py and the initial-pressure search as code that creates gas objects.
-/
import Verif.Lemmas.ProcFresh
import Verif.Props.MaxInitial

namespace Pypbomb.Process

open SD Quantity

variable {ct : Cantera} {α β γ : Type} {w w' w'' : Proc ct} {a b : ℕ} {g gb : ct.Gas} {env : Env ct}

/-! ### Functions with one gas object -/

theorem Follows.getPy_self (ha : a < w.gases.length) (p : ct.Gas → Py β) {f : β → Act ct α}
    {k : β → Py (α × ct.Gas)} (h : ∀ y, p g = .ok y → Follows (f y) w a g (k y)) :
    Follows (getPy a p >>= f) w a g (p g >>= k) := by
  have e : getPy a p (w.put a g) = some (p g, w.put a g) := by
    unfold getPy
    rw [put_self ha]
  cases hp : p g with
  | error e' =>
    rw [hp] at e
    exact ⟨g, bind_of_error e⟩
  | ok y =>
    rw [hp] at e
    have := h y hp
    rw [ok_bind]
    unfold Follows at this ⊢
    rw [bind_of_ok e]
    exact this

theorem Does.fresh {mechanism phase : String} {f : ℕ → Act ct α} {k : ct.Gas → Py (α × ct.Gas)}
    (h : ∀ g, Follows (f w.gases.length) (w.alloc g) w.gases.length g (k g)) :
    Does (new mechanism phase >>= f) w (ct.solution mechanism phase >>= fun g => k g >>= fun x => .ok x.1) 0 := by
  have n1 := new_run mechanism phase w
  cases hs : ct.solution mechanism phase with
  | error e =>
    rw [hs] at n1
    exact ⟨w, bind_of_error n1, Grown.refl w⟩
  | ok g0 =>
    simp only [hs] at n1
    have := h g0
    rw [ok_bind]
    unfold Follows at this
    rw [alloc_put] at this
    cases hk : k g0 with
    | error e =>
      rw [hk] at this
      obtain ⟨g', this⟩ := this
      rw [alloc_put] at this
      exact ⟨_, (bind_of_ok n1).trans this, grown_alloc _ _⟩
    | ok x =>
      rw [hk] at this
      obtain ⟨x, g'⟩ := x
      simp only [alloc_put] at this
      exact ⟨_, (bind_of_ok n1).trans this, grown_alloc _ _, rfl⟩

theorem laminarFlameSpeed_does (reg : Registry) (temperature pressure : QIn) (species : ct.Species)
    (mechanism phase : String) (w : Proc ct) :
    Does (Process.laminarFlameSpeed env reg temperature pressure species mechanism phase) w
      (Thermochem.laminarFlameSpeed ct reg temperature pressure species mechanism phase) 0 := by
  have key := Does.fresh (w := w) (mechanism := mechanism) (phase := phase)
    (f := fun gas => do
      let pressure ← lift (parseQ pressure reg)
      let temperature ← lift (parseQ temperature reg)
      lift (checkQ pressure "pressure" true)
      lift (checkQ temperature "temperature" true)
      let T ← lift (temperature.convert PUnit.kelvin)
      let P ← lift (pressure.convert PUnit.pascal)
      setTPX env gas T.mag P.mag species
      let u ← getPy gas ct.flameSpeed
      change gas (fun g => .ok (env.debris.flame g)) env.debris.flame
      pure (⟨u, PUnit.meterPerSecond, reg.id⟩ : Quantity))
    (k := fun g => do
      let pressure ← parseQ pressure reg
      let temperature ← parseQ temperature reg
      checkQ pressure "pressure" true
      checkQ temperature "temperature" true
      let T ← temperature.convert PUnit.kelvin
      let P ← pressure.convert PUnit.pascal
      let gas ← ct.setTPX g T.mag P.mag species
      let u ← ct.flameSpeed gas
      let gas ← .ok (env.debris.flame gas)
      .ok (⟨u, PUnit.meterPerSecond, reg.id⟩, gas))
    fun g => by
      have ha : w.gases.length < (w.alloc g).gases.length := by rw [alloc_length]; omega
      refine Follows.lift _ fun _ _ => ?_
      refine Follows.lift _ fun _ _ => ?_
      refine Follows.lift _ fun _ _ => ?_
      refine Follows.lift _ fun _ _ => ?_
      refine Follows.lift _ fun _ _ => ?_
      refine Follows.lift _ fun _ _ => ?_
      refine Follows.change ha _ _ fun g1 _ => ?_
      refine Follows.getPy_self ha _ fun u _ => ?_
      exact Follows.change ha (fun g => .ok (env.debris.flame g)) _ fun g2 _ => Follows.pure _
  simp only [py_bind_assoc, ok_bind] at key
  exact key

theorem eqSoundSpeed_does (reg : Registry) (temperature pressure : QIn) (species : ct.Species)
    (mechanism phase : String) (w : Proc ct) :
    Does (Process.eqSoundSpeed env reg temperature pressure species mechanism phase) w
      (Thermochem.eqSoundSpeed ct reg temperature pressure species mechanism phase) 0 := by
  unfold Process.eqSoundSpeed Thermochem.eqSoundSpeed
  refine Does.bind (k := 0) (k' := 0) (Does.lift _ _) fun pressure w1 _ => ?_
  refine Does.bind (k := 0) (k' := 0) (Does.lift _ _) fun temperature w2 _ => ?_
  refine Does.bind (k := 0) (k' := 0) (Does.lift _ _) fun _ w3 _ => ?_
  refine Does.bind (k := 0) (k' := 0) (Does.lift _ _) fun _ w4 _ => ?_
  have key := Does.fresh (w := w4) (mechanism := mechanism) (phase := phase)
    (f := fun gas => do
      let T ← lift (temperature.convert PUnit.kelvin)
      let P ← lift (pressure.convert PUnit.pascal)
      setTPX env gas T.mag P.mag species
      equilibrate env gas "TP"
      let p0 ← get gas ct.P
      let d0 ← get gas ct.density
      let p1 := 1.0001 * p0
      let s ← get gas ct.s
      change gas (ct.setSP · s p1) (env.debris.setSP · s p1)
      equilibrate env gas "SP"
      let d1 ← get gas ct.density
      let ratio ← lift (pyDiv (p1 - p0) (d1 - d0))
      let c ← lift (npSqrt ratio)
      pure (⟨c, PUnit.meterPerSecond, reg.id⟩ : Quantity))
    (k := fun g => do
      let T ← temperature.convert PUnit.kelvin
      let P ← pressure.convert PUnit.pascal
      let g1 ← ct.setTPX g T.mag P.mag species
      let g2 ← ct.equilibrate g1 "TP"
      let g3 ← ct.setSP g2 (ct.s g2) (1.0001 * ct.P g2)
      let g4 ← ct.equilibrate g3 "SP"
      let ratio ← pyDiv (1.0001 * ct.P g2 - ct.P g2) (ct.density g4 - ct.density g2)
      let c ← npSqrt ratio
      .ok (⟨c, PUnit.meterPerSecond, reg.id⟩, g4))
    fun g => by
      have ha : w4.gases.length < (w4.alloc g).gases.length := by rw [alloc_length]; omega
      refine Follows.lift _ fun _ _ => ?_
      refine Follows.lift _ fun _ _ => ?_
      refine Follows.change ha _ _ fun g1 _ => ?_
      refine Follows.change ha _ _ fun g2 _ => ?_
      refine Follows.get_self ha _ ?_
      refine Follows.get_self ha _ ?_
      refine Follows.get_self ha _ ?_
      refine Follows.change ha _ _ fun g3 _ => ?_
      refine Follows.change ha _ _ fun g4 _ => ?_
      refine Follows.get_self ha _ ?_
      refine Follows.lift _ fun _ _ => ?_
      refine Follows.lift _ fun _ _ => ?_
      exact Follows.pure _
  simp only [py_bind_assoc, ok_bind] at key
  exact key

/-! ### `calculate_run_up` -/

theorem unburned_run (hw : w'.gases[a]? = some g) (hgr : Grown w w') (ha : w.gases.length ≤ a) (T P : ℝ)
    (species : ct.Species) :
    match (do
      let u ← ct.setTPX g T P species
      let mu ← ct.viscosity u
      .ok (ct.density u, mu) : Py (ℝ × ℝ)) with
    | .ok x => ∃ w'', unburned env a T P species w' = some (.ok x, w'') ∧ Grown w w'' ∧ w''.warnings = w'.warnings
    | .error e => ∃ w'', unburned env a T P species w' = some (.error e, w'') ∧ Grown w w'' := by
  have hl : a < w'.gases.length := (List.getElem?_eq_some_iff.mp hw).1
  unfold unburned
  have t := setTPX_run (env := env) hw T P species
  obtain ⟨e, ht⟩ | ⟨u, ht⟩ := py_cases (ct.setTPX g T P species)
  · simp only [ht] at t ⊢
    exact ⟨_, bind_of_error t, hgr.put ha _⟩
  simp only [ht] at t
  have hu : (w'.put a u).gases[a]? = some u := put_self hl
  have hm : (getPy a ct.viscosity : Act ct ℝ) (w'.put a u) = some (ct.viscosity u, w'.put a u) := by
    unfold getPy
    rw [hu]
  simp only [ht, ok_bind, bind_of_ok t, bind_of_ok (get_run hu)]
  obtain ⟨e, hv⟩ | ⟨mu, hv⟩ := py_cases (ct.viscosity u)
  · rw [hv] at hm
    simp only [hv]
    exact ⟨_, bind_of_error hm, hgr.put ha _⟩
  · rw [hv] at hm
    simp only [hv]
    exact ⟨_, bind_of_ok hm, hgr.put ha _, rfl⟩

theorem runUpChoice_does (reg : Registry) {rhoMu : Act ct (ℝ × ℝ)} {v : Py (ℝ × ℝ)} (laminar sound : Quantity)
    (sigma : ℝ) (tube : Quantity) (br : ℝ) (hgr : Grown w w') (hw : w'.warnings = w.warnings)
    (h : match v with
      | .ok x => ∃ w'', rhoMu w' = some (.ok x, w'') ∧ Grown w w'' ∧ w''.warnings = w'.warnings
      | .error e => ∃ w'', rhoMu w' = some (.error e, w'') ∧ Grown w w'') :
    match DDT.runUpChoice reg v laminar sound sigma tube br with
    | .ok x => ∃ w'', Process.runUpChoice reg rhoMu laminar sound sigma tube br w' = some (.ok x, w'') ∧
        Grown w w'' ∧ w''.warnings = w.warnings
    | .error e => ∃ w'', Process.runUpChoice reg rhoMu laminar sound sigma tube br w' = some (.error e, w'') ∧
        Grown w w'' := by
  unfold DDT.runUpChoice Process.runUpChoice
  by_cases h1 : 0.3 ≤ br ∧ br ≤ 0.75
  · rw [ite_pos h1, ite_pos h1]
    cases DDT.eq44 laminar sound sigma tube br with
    | error e => exact ⟨w', rfl, hgr⟩
    | ok x => exact ⟨w', rfl, hgr, hw⟩
  rw [ite_neg h1, ite_neg h1]
  by_cases h2 : br ≤ 0.1
  · rw [ite_pos h2, ite_pos h2]
    cases v with
    | error e =>
      obtain ⟨w2, h, g⟩ := h
      exact ⟨w2, bind_of_error h, g⟩
    | ok rm =>
      obtain ⟨w2, h, g, hk⟩ := h
      simp only [ok_bind, bind_of_ok h]
      cases DDT.eq41 reg.id rm.1 rm.2 laminar sound sigma tube br with
      | error e => exact ⟨w2, rfl, g⟩
      | ok x => exact ⟨w2, rfl, g, hk.trans hw⟩
  · rw [ite_neg h2, ite_neg h2]
    cases v with
    | error e =>
      obtain ⟨w2, h, g⟩ := h
      exact ⟨w2, bind_of_error h, g⟩
    | ok rm =>
      obtain ⟨w2, h, g, hk⟩ := h
      simp only [ok_bind, bind_of_ok h]
      cases DDT.eq41 reg.id rm.1 rm.2 laminar sound sigma tube br with
      | error e => exact ⟨w2, rfl, g⟩
      | ok x =>
        simp only [ok_bind]
        cases DDT.eq44 laminar sound sigma tube br with
        | error e => exact ⟨w2, rfl, g⟩
        | ok y => exact ⟨w2, rfl, g, hk.trans hw⟩

theorem runUp_does (reg : Registry) (ratio : NumIn) (tube temperature pressure : QIn) (species : ct.Species)
    (mechanism phase : String) (w : Proc ct) :
    Does (Process.runUp env reg ratio tube temperature pressure species mechanism phase) w
      (DDT.runUp ct reg ratio tube temperature pressure species mechanism phase) 0 := by
  unfold Process.runUp DDT.runUp
  cases ratio with
  | num br =>
    simp only
    by_cases hb : br ≤ 0 ∨ 0.75 < br
    · rw [ite_pos hb, ite_pos hb]
      exact Does.lift _ _
    rw [ite_neg hb, ite_neg hb]
    refine Does.bind (k := 0) (k' := 0) (Does.lift _ _) fun tube _ _ => ?_
    refine Does.bind (k := 0) (k' := 0) (Does.lift _ _) fun temperature _ _ => ?_
    refine Does.bind (k := 0) (k' := 0) (Does.lift _ _) fun pressure _ _ => ?_
    refine Does.bind (k := 0) (k' := 0) (Does.lift _ _) fun _ _ _ => ?_
    refine Does.bind (k := 0) (k' := 0) (Does.lift _ _) fun _ _ _ => ?_
    refine Does.bind (k := 0) (k' := 0) (Does.lift _ _) fun _ _ _ => ?_
    refine Does.bind (k := 0) (k' := 0) (laminarFlameSpeed_does _ _ _ _ _ _ _) fun laminar w _ => ?_
    have n1 := new_run mechanism phase w
    cases hs : ct.solution mechanism phase with
    | error e =>
      rw [hs] at n1
      exact ⟨w, bind_of_error n1, Grown.refl w⟩
    | ok g0 =>
    simp only [hs] at n1
    simp only [ok_bind]
    cases hT : temperature.convert PUnit.kelvin with
    | error e => exact ⟨_, (bind_of_ok n1).trans <| bind_of_error (lift_run _ _), grown_alloc _ _⟩
    | ok T =>
    simp only [ok_bind]
    cases hP : pressure.convert PUnit.pascal with
    | error e =>
      exact ⟨_, (bind_of_ok n1).trans <| (bind_of_ok (lift_run _ _)).trans <| bind_of_error (lift_run _ _),
        grown_alloc _ _⟩
    | ok P =>
    simp only [ok_bind]
    have t1 := setTPX_run (env := env) (alloc_self w g0) T.mag P.mag species
    cases ht : ct.setTPX g0 T.mag P.mag species with
    | error e =>
      simp only [ht, alloc_put] at t1
      exact ⟨_, (bind_of_ok n1).trans <| (bind_of_ok (lift_run _ _)).trans <| (bind_of_ok (lift_run _ _)).trans <|
        bind_of_error t1, grown_alloc _ _⟩
    | ok g1 =>
    simp only [ht, alloc_put] at t1
    have e1 : Process.equilibrate env w.gases.length "HP" (w.alloc g1) = _ := change_run (alloc_self w g1) _ _
    simp only [ok_bind]
    have reach : ∀ {m : ℕ → Quantity → Quantity → ℝ → Act ct Quantity} {r}, m w.gases.length T P (ct.density g1)
        (w.alloc g1) = r → (new mechanism phase >>= fun working => lift (.ok T) >>= fun T => lift (.ok P) >>= fun P =>
          setTPX env working T.mag P.mag species >>= fun _ => get working ct.density >>= fun rhoU =>
          m working T P rhoU) w = r := fun h =>
      (bind_of_ok n1).trans <| (bind_of_ok (lift_run _ _)).trans <| (bind_of_ok (lift_run _ _)).trans <|
        (bind_of_ok t1).trans <| (bind_of_ok (get_run (alloc_self w g1))).trans h
    cases he : ct.equilibrate g1 "HP" with
    | error e =>
      simp only [he, alloc_put] at e1
      exact ⟨_, reach (bind_of_error e1), grown_alloc _ _⟩
    | ok g2 =>
    simp only [he, alloc_put] at e1
    simp only [ok_bind]
    cases hi : pyInv (ct.density g2) with
    | error e =>
      exact ⟨_, reach <| (bind_of_ok e1).trans <| (bind_of_ok (get_run (alloc_self w g2))).trans <|
        bind_of_error (by rw [lift_run, hi]), grown_alloc _ _⟩
    | ok inv =>
    simp only [ok_bind]
    have reach2 : ∀ {m : ℕ → Quantity → Quantity → ℝ → ℝ → ℝ → ℝ → Act ct Quantity} {r}, m w.gases.length T P
        (ct.density g1) inv (ct.T g2) (ct.P g2) (w.alloc g2) = r → (new mechanism phase >>= fun working => lift (.ok T) >>= fun T => lift (.ok P) >>=
          fun P => setTPX env working T.mag P.mag species >>= fun _ => get working ct.density >>= fun rhoU =>
          Process.equilibrate env working "HP" >>= fun _ => get working ct.density >>= fun rhoB =>
          lift (pyInv rhoB) >>= fun i => get working ct.T >>= fun Tb => get working ct.P >>= fun Pb =>
          m working T P rhoU i Tb Pb) w = r := fun h => reach <|
      (bind_of_ok e1).trans <| (bind_of_ok (get_run (alloc_self w g2))).trans <|
        (bind_of_ok (x := inv) (w' := w.alloc g2) (by rw [lift_run, hi])).trans <|
        (bind_of_ok (get_run (alloc_self w g2))).trans <| (bind_of_ok (get_run (alloc_self w g2))).trans h
    have hsnd := eqSoundSpeed_does (env := env) reg (.quantity ⟨ct.T g2, PUnit.kelvin, reg.id⟩)
      (.quantity ⟨ct.P g2, PUnit.pascal, reg.id⟩) species mechanism phase (w.alloc g2)
    cases hv : Thermochem.eqSoundSpeed ct reg (.quantity ⟨ct.T g2, PUnit.kelvin, reg.id⟩)
      (.quantity ⟨ct.P g2, PUnit.pascal, reg.id⟩) species mechanism phase with
    | error e =>
      rw [hv] at hsnd
      obtain ⟨w2, hsnd, gr2⟩ := hsnd
      exact ⟨w2, reach2 (bind_of_error hsnd), (grown_alloc _ _).trans gr2⟩
    | ok sound =>
    rw [hv] at hsnd
    obtain ⟨w2, hsnd, gr2, hk⟩ := hsnd
    simp only [ok_bind]
    have hgr : Grown w w2 := (grown_alloc _ _).trans gr2
    have hu := unburned_run (env := env) (gr2.getElem (alloc_self w g2)) hgr le_rfl T.mag P.mag species
    have hc := runUpChoice_does reg laminar sound (ct.density g1 * inv) tube br hgr hk hu
    unfold Does
    obtain ⟨e, hr⟩ | ⟨q, hr⟩ := py_cases (DDT.runUpChoice reg (do
      let u ← ct.setTPX g2 T.mag P.mag species
      let mu ← ct.viscosity u
      .ok (ct.density u, mu)) laminar sound (ct.density g1 * inv) tube br)
    · rw [hr] at hc ⊢
      obtain ⟨w3, hc, g3⟩ := hc
      exact ⟨w3, reach2 ((bind_of_ok hsnd).trans hc), g3⟩
    · rw [hr] at hc ⊢
      obtain ⟨w3, hc, g3, hk3⟩ := hc
      exact ⟨w3, reach2 ((bind_of_ok hsnd).trans hc), g3, hk3⟩
  | _ => exact Does.lift _ _

/-! ### `calculate_reflected_shock_state` -/

/-- On return the two states are different objects, created by the call. -/
theorem reflectedShockState_run (parallel : Bool) (reg : Registry) (temperature pressure : Quantity)
    (species : ct.Species) (mechanism : String) (w : Proc ct) :
    match SD.reflectedShockState ct (collector env parallel) reg temperature pressure species mechanism with
    | .ok s => ∃ post w', Process.reflectedShockState env parallel reg temperature pressure species mechanism w =
          some (.ok ⟨s.reflectedSpeed, w.gases.length + 1, s.cjSpeed, post⟩, w') ∧
        w.gases <+: w'.gases ∧ w'.pools = w.pools ∧ w'.nextPool = (w.pooled parallel).nextPool ∧
        w.gases.length + 2 ≤ post ∧ w'.gases[w.gases.length + 1]? = some s.reflectedState ∧
        w'.gases[post]? = some s.cjState
    | .error e => ∃ w', Process.reflectedShockState env parallel reg temperature pressure species mechanism w =
          some (.error e, w') ∧
        w.gases <+: w'.gases ∧ (w'.pools = w.pools ∨ w'.pools = (w.pooled parallel).pools) := by
  unfold Process.reflectedShockState SD.reflectedShockState
  have n1 := new_run mechanism "" w
  obtain ⟨e, hs⟩ | ⟨g0, hs⟩ := py_cases (ct.solution mechanism "")
  · simp only [hs] at n1 ⊢
    exact ⟨w, bind_of_error n1, List.prefix_rfl, Or.inl rfl⟩
  simp only [hs] at n1
  have n2 := new_run mechanism "" (w.alloc g0)
  rw [hs] at n2
  have hgr : Grown w ((w.alloc g0).alloc g0) := (grown_alloc _ _).trans (grown_alloc _ _)
  have hlen : ((w.alloc g0).alloc g0).gases.length = w.gases.length + 2 := by simp [Proc.alloc]
  have hi0 : ((w.alloc g0).alloc g0).gases[w.gases.length]? = some g0 := (grown_alloc _ _).getElem (alloc_self w g0)
  have hw0 : ((w.alloc g0).alloc g0).gases[w.gases.length + 1]? = some g0 := by
    have := alloc_self (w.alloc g0) g0
    rwa [alloc_length] at this
  simp only [alloc_length] at n2
  simp only [hs, ok_bind, bind_of_ok n1, bind_of_ok n2]
  obtain ⟨e, hT⟩ | ⟨T, hT⟩ := py_cases (temperature.convert PUnit.kelvin)
  · simp only [hT]
    exact ⟨_, bind_of_error (lift_run _ _), hgr.gases, Or.inl rfl⟩
  simp only [hT, ok_bind, bind_of_ok (lift_run (.ok T) ((w.alloc g0).alloc g0))]
  obtain ⟨e, hP⟩ | ⟨P, hP⟩ := py_cases (pressure.convert PUnit.pascal)
  · simp only [hP]
    exact ⟨_, bind_of_error (lift_run _ _), hgr.gases, Or.inl rfl⟩
  simp only [hP, ok_bind, bind_of_ok (lift_run (.ok P) ((w.alloc g0).alloc g0))]
  have t1 := setTPX_run (env := env) hi0 T.mag P.mag species
  obtain ⟨e, ht⟩ | ⟨g1, ht⟩ := py_cases (ct.setTPX g0 T.mag P.mag species)
  · simp only [ht] at t1
    simp only [ht]
    exact ⟨_, bind_of_error t1, (hgr.put le_rfl _).gases, Or.inl rfl⟩
  simp only [ht] at t1
  simp only [ht, ok_bind, bind_of_ok t1]
  generalize hw1 : ((w.alloc g0).alloc g0).put w.gases.length g1 = w1 at t1
  have hg1 : Grown w w1 := hw1 ▸ hgr.put le_rfl _
  have hl1 : w1.gases.length = w.gases.length + 2 := by rw [← hw1, put_length, hlen]
  have hi1 : w1.gases[w.gases.length]? = some g1 := by rw [← hw1]; exact put_self (by omega)
  have hwk : w1.gases[w.gases.length + 1]? = some g0 := by rw [← hw1, put_other (by omega)]; exact hw0
  have t2 := setTPX_run (env := env) hwk T.mag P.mag species
  simp only [ht] at t2
  simp only [bind_of_ok t2]
  generalize hw2 : w1.put (w.gases.length + 1) g1 = w2 at t2
  have hg2 : Grown w w2 := hw2 ▸ hg1.put (by omega) _
  have hl2 : w2.gases.length = w.gases.length + 2 := by rw [← hw2, put_length, hl1]
  have hi2 : w2.gases[w.gases.length]? = some g1 := by rw [← hw2, put_other (by omega)]; exact hi1
  have hk2 : w2.gases[w.gases.length + 1]? = some g1 := by rw [← hw2]; exact put_self (by omega)
  have hp2 : (w2.pooled parallel).nextPool = (w.pooled parallel).nextPool := by
    cases parallel
    · exact hg2.nextPool
    · exact congrArg (· + 1) hg2.nextPool
  have hpp2 : (w2.pooled parallel).pools = (w.pooled parallel).pools := by
    cases parallel
    · exact hg2.pools
    · show w2.nextPool :: w2.pools = _
      rw [hg2.nextPool, hg2.pools]
      rfl
  have hc := cjSpeed_run (env := env) parallel T.mag P.mag species mechanism false true w2
  obtain ⟨e, hv⟩ | ⟨s, hv⟩ := py_cases (SD.cjSpeed ct (collector env parallel) P.mag T.mag species mechanism false true)
  · rw [hv] at hc
    obtain ⟨w3, hc, g3, -, p3, p3'⟩ := hc
    simp only [hv]
    refine ⟨w3, bind_of_error hc, hg2.gases.trans g3, ?_⟩
    by_cases hl : ∃ l, SD.refineLoop (collector env parallel) (SD.overRatio ct T.mag P.mag species mechanism) 0 4 1.5 2
      none 0 = .ok l
    · exact Or.inl ((p3 hl).trans hg2.pools)
    · exact Or.inr ((p3' hl).trans hpp2)
  rw [hv] at hc
  obtain ⟨r1, r2, r3, r4, ref, w3, -, hc, g3, p3, np3, -, hst⟩ := hc
  simp only [hv, ok_bind, bind_of_ok hc]
  obtain ⟨speed, rs, st⟩ := s
  cases st with
  | none =>
    obtain rfl : ref = none := hst
    exact ⟨w3, rfl, hg2.gases.trans g3, Or.inl (p3.trans hg2.pools)⟩
  | some gp =>
  obtain ⟨post, rfl, hpost, hgp⟩ := hst
  simp only
  have hi3 : w3.gases[w.gases.length]? = some g1 := by
    obtain ⟨l, hl⟩ := g3
    rw [← hl, List.getElem?_append_left (by omega), hi2]
  have hk3 : w3.gases[w.gases.length + 1]? = some g1 := by
    obtain ⟨l, hl⟩ := g3
    rw [← hl, List.getElem?_append_left (by omega), hk2]
  have hr := reflect_run (env := env) hi3 hgp hk3 (by omega) speed
  have hpre : w.gases <+: w3.gases := hg2.gases.trans g3
  have hput : ∀ g' c, w.gases <+: (w3.after (w.gases.length + 1) g' c).gases := fun g' c =>
    (Grown.after (w := { w3 with gases := w.gases }) ⟨hpre, rfl, rfl⟩ (by simp) g' c).gases
  obtain ⟨e, hx⟩ | ⟨o, hx⟩ := py_cases (SD.reflect ct g1 gp g1 speed)
  · rw [hx] at hr
    obtain ⟨g', c, hr⟩ := hr
    simp only [hx]
    exact ⟨_, bind_of_error hr, hput _ _, Or.inl (p3.trans hg2.pools)⟩
  · rw [hx] at hr
    obtain ⟨c, hr, -⟩ := hr
    simp only [hx, ok_bind, bind_of_ok hr]
    refine ⟨post, _, rfl, hput _ _, p3.trans hg2.pools, np3.trans hp2, by omega, after_self ?_ _, ?_⟩
    · have := g3.length_le
      omega
    · rw [after_other (by omega)]
      exact hgp

/-! ### `Tube.calculate_max_initial_pressure` -/

/-- The number of pools used by `n` calls of `cj_speed`. -/
def poolsUsed (parallel : Bool) (n : ℕ) : ℕ := if parallel = true then n else 0

theorem pooled_nextPool (w : Proc ct) (parallel : Bool) :
    (w.pooled parallel).nextPool = w.nextPool + poolsUsed parallel 1 := by cases parallel <;> rfl

theorem search_run (parallel : Bool) (reg : Registry) (temperature : Quantity) (species : ct.Species)
    (mechanism : String) (dlfOf : Quantity → Py ℝ) (useDlf : Bool) (state : String) (m tol : ℝ) (n : ℕ) (p : Quantity)
    (s : ShockRef) (sv : Tube.Shock) (gr : ct.Gas) (dlf err : ℝ) (k : ℕ) (ev : List Quantity) (w : Proc ct)
    (hgr : w.gases[s.reflectedState]? = some gr) (hP : ct.P gr = sv.reflectedP) :
    match Tube.search (Tube.gasShock ct (collector env parallel) reg temperature species mechanism) dlfOf useDlf state
      m tol n p sv dlf err k ev with
    | .ok f => ∃ w', Process.search env parallel reg temperature species mechanism dlfOf useDlf state m tol n p s dlf
          err w = some (.ok (f.pressure, f.dlf), w') ∧
        w.gases <+: w'.gases ∧ w'.pools = w.pools ∧ k ≤ f.updates ∧
        w'.nextPool = w.nextPool + poolsUsed parallel (f.updates - k)
    | .error e => ∃ w', Process.search env parallel reg temperature species mechanism dlfOf useDlf state m tol n p s dlf
          err w = some (.error e, w') ∧ w.gases <+: w'.gases := by
  induction n generalizing p s sv gr dlf err k ev w with
  | zero => exact ⟨w, rfl, List.prefix_rfl, rfl, le_rfl, by simp [poolsUsed]⟩
  | succ n ih =>
    rw [Process.search, Tube.search]
    by_cases ht : tol < |err|
    · rw [ite_pos ht, ite_pos ht]
      obtain ⟨e, h1⟩ | ⟨p1, h1⟩ := py_cases (scale m p)
      · simp only [h1]
        exact ⟨w, bind_of_error (lift_run _ _), List.prefix_rfl⟩
      simp only [h1, ok_bind, bind_of_ok (lift_run (.ok p1) w), bind_of_ok (get_run hgr), hP]
      obtain ⟨e, h2⟩ | ⟨p2, h2⟩ := py_cases (p1.divNum (dlf * sv.reflectedP))
      · simp only [h2]
        exact ⟨w, bind_of_error (lift_run _ _), List.prefix_rfl⟩
      simp only [h2, ok_bind, bind_of_ok (lift_run (.ok p2) w)]
      have hs := reflectedShockState_run (env := env) parallel reg temperature p2 species mechanism w
      simp only [Tube.gasShock]
      obtain ⟨e, h3⟩ | ⟨s1, h3⟩ := py_cases (SD.reflectedShockState ct (collector env parallel) reg temperature p2 species
        mechanism)
      · rw [h3] at hs
        obtain ⟨w1, hs, pre, -⟩ := hs
        simp only [h3]
        exact ⟨w1, bind_of_error hs, pre⟩
      rw [h3] at hs
      obtain ⟨post, w1, hs, pre, hpools, hnext, -, hrefl, hcj⟩ := hs
      simp only [h3, ok_bind, bind_of_ok hs, Tube.loopDlf]
      obtain ⟨e, h4⟩ | ⟨d1, h4⟩ := py_cases (if useDlf = true then dlfOf s1.cjSpeed else .ok 1)
      · simp only [h4]
        exact ⟨w1, bind_of_error (lift_run _ _), pre⟩
      simp only [h4, ok_bind, bind_of_ok (lift_run (.ok d1) w1)]
      have hsel : (get (if state = "cj" then post else w.gases.length + 1) ct.P : Act ct ℝ) w1 =
          some (.ok ((⟨s1.cjSpeed, ct.P s1.cjState, ct.P s1.reflectedState⟩ : Tube.Shock).selected state), w1) := by
        unfold Tube.Shock.selected
        by_cases hc : state = "cj"
        · rw [if_pos hc, if_pos hc]
          exact get_run hcj
        · rw [if_neg hc, if_neg hc]
          exact get_run hrefl
      simp only [bind_of_ok hsel]
      by_cases hm : m = 0
      · subst hm
        simp only [if_true, pyDiv]
        exact ⟨w1, bind_of_error (lift_run _ _), pre⟩
      · simp only [pyDiv_ok hm, if_neg hm, bind_of_ok (lift_run (.ok _) w1)]
        have := ih p2 ⟨s1.reflectedSpeed, w.gases.length + 1, s1.cjSpeed, post⟩
          ⟨s1.cjSpeed, ct.P s1.cjState, ct.P s1.reflectedState⟩ s1.reflectedState d1
          (((⟨s1.cjSpeed, ct.P s1.cjState, ct.P s1.reflectedState⟩ : Tube.Shock).selected state * d1 - m) / m) (k + 1)
          (ev ++ [p2]) w1 hrefl rfl
        obtain ⟨e, h5⟩ | ⟨f, h5⟩ := py_cases (Tube.search (Tube.gasShock ct (collector env parallel) reg temperature species
          mechanism) dlfOf useDlf state m tol n p2 ⟨s1.cjSpeed, ct.P s1.cjState, ct.P s1.reflectedState⟩ d1
          (((⟨s1.cjSpeed, ct.P s1.cjState, ct.P s1.reflectedState⟩ : Tube.Shock).selected state * d1 - m) / m) (k + 1)
          (ev ++ [p2]))
        · rw [h5] at this
          obtain ⟨w2, this, pre2⟩ := this
          rw [h5]
          exact ⟨w2, this, pre.trans pre2⟩
        · rw [h5] at this
          obtain ⟨w2, this, pre2, hp2, hk, hn2⟩ := this
          rw [h5]
          refine ⟨w2, this, pre.trans pre2, hp2.trans hpools, by omega, ?_⟩
          rw [hn2, hnext, pooled_nextPool]
          cases parallel <;> simp only [poolsUsed, if_true, Bool.false_eq_true, if_false]
          omega
    · rw [ite_neg ht, ite_neg ht]
      exact ⟨w, rfl, List.prefix_rfl, rfl, le_rfl, by simp [poolsUsed]⟩

theorem initialPressure_run (parallel : Bool) (reg : Registry) (id od : QIn) (temperature : Quantity)
    (species : ct.Species) (mechanism : String) (max : Quantity) (modulus density : QIn) (poisson pm : ℝ)
    (useDlf : Bool) (tol : ℝ) (maxIter : ℤ) (state : String) (returnDlf : Bool) (w : Proc ct) :
    match Tube.initialPressureSearch ct (collector env parallel) reg id od temperature species mechanism max modulus
      density poisson pm useDlf tol maxIter state with
    | .ok f => ∃ w', Process.calculateMaxInitialPressure env parallel reg id od temperature species mechanism max
          modulus density poisson pm useDlf tol maxIter state returnDlf w =
          some (.ok (f.pressure, if returnDlf = true then some f.dlf else none), w') ∧
        w.gases <+: w'.gases ∧ w'.pools = w.pools ∧ w'.nextPool = w.nextPool + poolsUsed parallel (f.updates + 1)
    | .error e => ∃ w', Process.calculateMaxInitialPressure env parallel reg id od temperature species mechanism max
          modulus density poisson pm useDlf tol maxIter state returnDlf w = some (.error e, w') ∧
        w.gases <+: w'.gases := by
  unfold Tube.initialPressureSearch Tube.maxInitialPressure Process.calculateMaxInitialPressure
  by_cases hst : state ≠ "reflected" ∧ state ≠ "cj"
  · rw [ite_pos hst, ite_pos hst]
    exact ⟨w, rfl, List.prefix_rfl⟩
  rw [ite_neg hst, ite_neg hst]
  have hs := reflectedShockState_run (env := env) parallel reg temperature ⟨1, PUnit.atm, reg.id⟩ species mechanism w
  obtain ⟨e, h3⟩ | ⟨s1, h3⟩ := py_cases (SD.reflectedShockState ct (collector env parallel) reg temperature
    ⟨1, PUnit.atm, reg.id⟩ species mechanism)
  · rw [h3] at hs
    obtain ⟨w1, hs, pre, -⟩ := hs
    simp only [Tube.gasShock, h3]
    exact ⟨w1, bind_of_error hs, pre⟩
  rw [h3] at hs
  obtain ⟨post, w1, hs, pre, hpools, hnext, -, hrefl, hcj⟩ := hs
  have hg : Tube.gasShock ct (collector env parallel) reg temperature species mechanism ⟨1, PUnit.atm, reg.id⟩ =
      .ok ⟨s1.cjSpeed, ct.P s1.cjState, ct.P s1.reflectedState⟩ := by
    simp only [Tube.gasShock, h3, ok_bind]
  simp only [hg, ok_bind, bind_of_ok hs]
  obtain ⟨e, h4⟩ | ⟨d1, h4⟩ := py_cases (Tube.dynamicLoadFactor id od (.quantity s1.cjSpeed) modulus density poisson pm)
  · simp only [h4]
    exact ⟨w1, bind_of_error (lift_run _ _), pre⟩
  simp only [h4, ok_bind, bind_of_ok (lift_run (.ok d1) w1)]
  by_cases hm : max.mag = 0
  · simp only [if_pos hm, pyDiv]
    exact ⟨w1, bind_of_error (lift_run _ _), pre⟩
  simp only [pyDiv_ok hm, if_neg hm, bind_of_ok (lift_run (.ok _) w1)]
  have hsr := search_run (env := env) parallel reg temperature species mechanism
    (fun v => Tube.dynamicLoadFactor id od (.quantity v) modulus density poisson pm) useDlf state max.mag |tol|
    maxIter.toNat ⟨1, PUnit.atm, reg.id⟩ ⟨s1.reflectedSpeed, w.gases.length + 1, s1.cjSpeed, post⟩
    ⟨s1.cjSpeed, ct.P s1.cjState, ct.P s1.reflectedState⟩ s1.reflectedState d1 (1 * d1 / max.mag - 1) 0
    [⟨1, PUnit.atm, reg.id⟩] w1 hrefl rfl
  obtain ⟨e, h5⟩ | ⟨f, h5⟩ := py_cases (Tube.search (Tube.gasShock ct (collector env parallel) reg temperature species
    mechanism) (fun v => Tube.dynamicLoadFactor id od (.quantity v) modulus density poisson pm) useDlf state max.mag |tol|
    maxIter.toNat ⟨1, PUnit.atm, reg.id⟩ ⟨s1.cjSpeed, ct.P s1.cjState, ct.P s1.reflectedState⟩ d1
    (1 * d1 / max.mag - 1) 0 [⟨1, PUnit.atm, reg.id⟩])
  · rw [h5] at hsr
    obtain ⟨w2, h6, pre2⟩ := hsr
    rw [h5]
    exact ⟨w2, bind_of_error h6, pre.trans pre2⟩
  · rw [h5] at hsr
    obtain ⟨w2, h6, pre2, hp2, -, hn2⟩ := hsr
    rw [h5]
    refine ⟨w2, bind_of_ok h6, pre.trans pre2, hp2.trans hpools, ?_⟩
    rw [hn2, hnext, pooled_nextPool]
    cases parallel <;> simp only [poolsUsed, if_true, Bool.false_eq_true, if_false]
    omega

end Pypbomb.Process
