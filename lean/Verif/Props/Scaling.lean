/-
C94: in a gas whose behaviour at given temperature does not depend on pressure (a thermally perfect gas of fixed
products) the whole chain from `cj_speed` to `calculate_max_initial_pressure` scales with the initial pressure.
-/
import Verif.Props.MaxInitial
import Verif.Lemmas.PerfectGas

namespace Pypbomb.SD

open Pypbomb

variable {ct : Cantera}

/-- Two outcomes match: both values, related by `R`, or the same exception. -/
def Match {α β : Type} (R : α → β → Prop) : Py α → Py β → Prop
  | .ok a, .ok b => R a b
  | .error e, .error e' => e = e'
  | _, _ => False

/-- The same for loops that may still be running. -/
def OMatch {α β : Type} (R : α → β → Prop) : Option (Py α) → Option (Py β) → Prop
  | some a, some b => Match R a b
  | none, none => True
  | _, _ => False

theorem Match.bind {α β γ δ : Type} {R : α → β → Prop} {Q : γ → δ → Prop} {x : Py α} {y : Py β} {f : α → Py γ}
    {g : β → Py δ} (h : Match R x y) (hf : ∀ a b, R a b → Match Q (f a) (g b)) : Match Q (x >>= f) (y >>= g) := by
  cases x <;> cases y
  · exact h
  · exact h.elim
  · exact h.elim
  · exact hf _ _ h

theorem Match.mono {α β : Type} {R Q : α → β → Prop} {x : Py α} {y : Py β} (h : Match R x y)
    (hi : ∀ a b, R a b → Q a b) : Match Q x y := by
  cases x <;> cases y
  · exact h
  · exact h.elim
  · exact h.elim
  · exact hi _ _ h

theorem Match.refl {α : Type} {R : α → α → Prop} (h : ∀ a, R a a) (x : Py α) : Match R x x := by
  cases x
  · rfl
  · exact h _

theorem Match.eq {α : Type} {x y : Py α} (h : Match (fun a b => b = a) x y) : y = x := by
  cases x <;> cases y
  · exact congrArg _ (Eq.symm h)
  · exact h.elim
  · exact h.elim
  · exact congrArg _ h

theorem pyDiv_scale {x y x' y' c d : ℝ} (hd : d ≠ 0) (hx : x' = c * x) (hy : y' = d * y) :
    Match (fun a b => b = c / d * a) (pyDiv x y) (pyDiv x' y') := by
  subst hx hy
  by_cases h : y = 0
  · subst h
    simp [pyDiv, Match]
  · rw [pyDiv_ok h, pyDiv_ok (mul_ne_zero hd h)]
    change c * x / (d * y) = c / d * (x / y)
    rw [mul_div_mul_comm]

theorem pyInv_scale {x x' d : ℝ} (hd : d ≠ 0) (hx : x' = d * x) :
    Match (fun a b => b = 1 / d * a) (pyInv x) (pyInv x') := by
  subst hx
  by_cases h : x = 0
  · subst h
    simp [pyInv, Match]
  · rw [pyInv_ok h, pyInv_ok (mul_ne_zero hd h)]
    change 1 / (d * x) = 1 / d * (1 / x)
    rw [← one_div_mul_one_div]

/-- Two gas models side by side: `S g g'` says that `g'` of the second is `g` of the first at `k` times the pressure and
density, with the same temperature and specific enthalpy and corresponding composition `Q`; and every operation of
Cantera keeps it so (setting temperature, pressure and composition: at the temperatures and pressures in `D`). -/
structure Scaled (ct ct' : Cantera) (k : ℝ) (D : ℝ → ℝ → Prop) (S : ct.Gas → ct'.Gas → Prop)
    (Q : ct.Species → ct'.Species → Prop) : Prop where
  T : ∀ {g g'}, S g g' → ct'.T g' = ct.T g
  P : ∀ {g g'}, S g g' → ct'.P g' = k * ct.P g
  density : ∀ {g g'}, S g g' → ct'.density g' = k * ct.density g
  enthalpy : ∀ {g g'}, S g g' → ct'.enthalpy g' = ct.enthalpy g
  X : ∀ {g g'}, S g g' → Q (ct.X g) (ct'.X g')
  solution : ∀ mechanism, Match (fun _ _ => True) (ct.solution mechanism "") (ct'.solution mechanism "")
  setTD : ∀ {g g'} T ρ, S g g' → Match S (ct.setTD g T ρ) (ct'.setTD g' T (k * ρ))
  equilibrate : ∀ {g g'}, S g g' → Match S (ct.equilibrate g "TV") (ct'.equilibrate g' "TV")
  setTPX_T : ∀ {g g'} {T P : ℝ} {x}, ct.setTPX g T P x = .ok g' → ct.T g' = T
  setTPX : ∀ g g' {T P x x'}, D T P → Q x x' → Match S (ct.setTPX g T P x) (ct'.setTPX g' T (k * P) x')

/-- The gas scales with pressure: raising the pressure by the factor `k` at the same temperature and composition changes
neither temperature, enthalpy nor composition, and equilibrium does not shift. -/
def PressureFree (ct : Cantera) (k : ℝ) (S : ct.Gas → ct.Gas → Prop) : Prop := Scaled ct ct k (fun _ _ => True) S Eq

/-- The perfect gas is such a gas. -/
theorem perfect_pressureFree (R cp q : ℝ) {k : ℝ} :
    PressureFree (perfect R cp q) k (fun g g' : PGas => g'.T = g.T ∧ g'.P = k * g.P ∧ g'.burnt = g.burnt) where
  T h := h.1
  P h := h.2.1
  density {g g'} h := by
    obtain ⟨h1, h2, -⟩ := h
    change g'.P / (R * g'.T) = k * (g.P / (R * g.T))
    rw [h1, h2, mul_div_assoc]
  enthalpy {g g'} h := by
    obtain ⟨h1, -, h3⟩ := h
    change cp * g'.T - (if g'.burnt = true then q else 0) = cp * g.T - (if g.burnt = true then q else 0)
    rw [h1, h3]
  X _ := rfl
  solution _ := trivial
  setTD {g g'} T ρ h := ⟨rfl, (by ring : R * T * (k * ρ) = k * (R * T * ρ)), h.2.2⟩
  equilibrate h := ⟨h.1, h.2.1, rfl⟩
  setTPX_T {g g' T P x} h := by
    cases h
    rfl
  setTPX _ _ _ _ _ _ _ _ := ⟨rfl, rfl, rfl⟩

section Chain

variable {ct' : Cantera} {k : ℝ} {S : ct.Gas → ct'.Gas → Prop} {Q : ct.Species → ct'.Species → Prop}
  {D : ℝ → ℝ → Prop} (H : Scaled ct ct' k D S Q) (hk : 0 < k)
include H

theorem equilibrium_scale {g : ct.Gas} {g' : ct'.Gas} {ρ ρ' T T' : ℝ} (hs : S g g') (hρ : ρ' = k * ρ) (hT : T' = T) :
    Match S (equilibrium ct g ρ T) (equilibrium ct' g' ρ' T') := by
  subst hρ hT
  exact (H.setTD _ _ hs).bind fun _ _ h => H.equilibrate h

include hk

theorem errEquilibrium_scale {g i : ct.Gas} {g' i' : ct'.Gas} {v v' : ℝ} (hs : S g g') (hi : S i i') (hv : v' = v) :
    Match (fun e e' => e'.1 = e.1 ∧ e'.2 = k * e.2) (errEquilibrium ct g i v) (errEquilibrium ct' g' i' v') := by
  subst hv
  unfold errEquilibrium
  refine (pyDiv_scale (c := k) hk.ne' (by rw [H.density hi]; ring) (H.density hs)).bind fun w w' hw => ?_
  rw [div_self hk.ne', one_mul] at hw
  subst hw
  refine ⟨?_, ?_⟩
  · change _ - _ = _ - _
    rw [H.enthalpy hs, H.enthalpy hi]
  · change _ - _ = k * (_ - _)
    rw [H.P hs, H.P hi, H.density hs, H.density hi]; ring

theorem errReflected_scale {g i : ct.Gas} {g' i' : ct'.Gas} {v v' : ℝ} (hs : S g g') (hi : S i i') (hv : v' = v) :
    Match (fun e e' => e'.1 = e.1 ∧ e'.2 = k * e.2) (errReflected ct v g i) (errReflected ct' v' g' i') := by
  subst hv
  unfold errReflected
  refine (pyDiv_scale (c := k) hk.ne' (H.density hs) (H.density hi)).bind fun r r' hr => ?_
  rw [div_self hk.ne', one_mul] at hr
  subst hr
  refine (Match.refl (R := fun a b => b = a) (fun _ => rfl) _).bind fun h h' hh => ?_
  refine (pyDiv_scale (c := k) (d := 1) one_ne_zero (by rw [H.density hs]; ring) (one_mul _).symm).bind
    fun p p' hp => ?_
  refine ⟨?_, ?_⟩
  · change _ - _ - _ = _ - _ - _
    rw [H.enthalpy hs, H.enthalpy hi, hh]
  · change _ - _ - _ = k * (_ - _ - _)
    rw [H.P hs, H.P hi, hp]; ring

omit H in
/-- The Newton step in rescaled unknowns and equations: momentum times `k`, the second unknown times `c`. -/
theorem newton_scale {c hx hy px py eh ep hx' hy' px' py' eh' ep' : ℝ} (hc : c ≠ 0) (h1 : hx' = hx)
    (h2 : hy' = hy / c) (h3 : px' = k * px) (h4 : py' = k * py / c) (h5 : eh' = eh) (h6 : ep' = k * ep) :
    Match (fun d d' => d'.1 = d.1 ∧ d'.2 = c * d.2) (newton hx hy px py eh ep) (newton hx' hy' px' py' eh' ep') := by
  subst h1 h2 h3 h4 h5 h6
  have hkc : k / c ≠ 0 := div_ne_zero hk.ne' hc
  unfold newton
  refine (pyDiv_scale (c := k / c) hkc (by field_simp) (by field_simp)).bind fun dx dx' hdx => ?_
  refine (pyDiv_scale (c := k) hkc (by ring) (by field_simp)).bind fun dy dy' hdy => ?_
  refine ⟨?_, ?_⟩
  · change dx' = dx
    rw [hdx, div_self hkc, one_mul]
  · change dy' = c * dy
    rw [hdy, div_div_eq_mul_div, mul_div_cancel_left₀ _ hk.ne']

omit H hk in
theorem limit_scale {c d d' m m' : ℝ} (hc : 0 < c) (hd : d' = c * d) (hm : m' = c * m) :
    Match (fun a b => b = c * a) (limit d m) (limit d' m') := by
  subst hd hm
  unfold limit
  rw [abs_mul, abs_of_pos hc]
  by_cases h : |d| > m
  · rw [if_pos h, if_pos (mul_lt_mul_of_pos_left h hc)]
    refine (pyDiv_scale (c := c * c) (d := c) hc.ne' (by ring) rfl).mono fun a b hb => ?_
    rw [hb, mul_div_assoc, div_self hc.ne', mul_one]
  · rw [if_neg h, if_neg (by rw [gt_iff_lt, mul_lt_mul_iff_right₀ hc]; exact h)]
    rfl

/-- Loop states of `cj_state` in the two runs. -/
def CJRel (S : ct.Gas → ct'.Gas → Prop) (s : CJ ct) (s' : CJ ct') : Prop :=
  S s.gas s'.gas ∧ s'.T = s.T ∧ s'.v = s.v ∧ s'.dT = s.dT ∧ s'.dv = s.dv ∧ s'.count = s.count

/-- Loop states of `get_eq_state` in the two runs. -/
def RSRel (k : ℝ) (S : ct.Gas → ct'.Gas → Prop) (s : RS ct) (s' : RS ct') : Prop :=
  S s.gas s'.gas ∧ s'.T = s.T ∧ s'.V = 1 / k * s.V ∧ s'.dT = s.dT ∧ s'.count = s.count

theorem cjBody_scale {i : ct.Gas} {i' : ct'.Gas} {ρ ρ' : ℝ} {s : CJ ct} {s' : CJ ct'} (hi : S i i') (hρ : ρ' = k * ρ)
    (h : CJRel S s s') : Match (CJRel S) (cjBody ct i ρ s) (cjBody ct' i' ρ' s') := by
  obtain ⟨hg, hT, hv, -, -, hc⟩ := h
  unfold cjBody
  refine (errEquilibrium_scale H hk hg hi hv).bind fun e e' he => ?_
  refine (equilibrium_scale H hg hρ (by rw [hT])).bind fun g g' hg2 => ?_
  refine (errEquilibrium_scale H hk hg2 hi hv).bind fun eT eT' heT => ?_
  refine (pyDiv_scale (c := 1) (d := 1) one_ne_zero (by rw [heT.1, he.1]; ring) (by rw [hT]; ring)).bind
    fun a a' ha => ?_
  refine (pyDiv_scale (c := k) (d := 1) one_ne_zero (by rw [heT.2, he.2]; ring) (by rw [hT]; ring)).bind
    fun b b' hb => ?_
  refine (equilibrium_scale H hg2 hρ hT).bind fun g g' hg3 => ?_
  refine (errEquilibrium_scale H hk hg3 hi (by rw [hv])).bind fun ev ev' hev => ?_
  refine (pyDiv_scale (c := 1) (d := 1) one_ne_zero (by rw [hev.1, he.1]; ring) (by rw [hv]; ring)).bind
    fun c c' hc' => ?_
  refine (pyDiv_scale (c := k) (d := 1) one_ne_zero (by rw [hev.2, he.2]; ring) (by rw [hv]; ring)).bind
    fun d d' hd => ?_
  refine (newton_scale hk (c := 1) one_ne_zero (by rw [ha]; ring) (by rw [hc']; ring) (by rw [hb]; ring)
    (by rw [hd]; ring) he.1 he.2).bind fun n n' hn => ?_
  refine (limit_scale (c := 1) one_pos (by rw [hn.1]; ring) (by rw [hT]; ring)).bind fun l l' hl => ?_
  rw [one_mul] at hl
  refine (equilibrium_scale H hg3 hρ (by rw [hT, hl])).bind fun g g' hg4 => ?_
  exact ⟨hg4, by change _ + _ = _ + _; rw [hT, hl], by change _ + _ = _ + _; rw [hv, hn.2, one_mul], hl,
    hn.2.trans (one_mul _), by change _ + 1 = _ + 1; rw [hc]⟩

theorem cjLoop_scale {i : ct.Gas} {i' : ct'.Gas} {ρ ρ' tolT tolV : ℝ} {maxIter : ℤ} (hi : S i i') (hρ : ρ' = k * ρ) :
    ∀ (fuel : ℕ) (s : CJ ct) (s' : CJ ct'), CJRel S s s' →
      OMatch (fun (o : CJOut ct) (o' : CJOut ct') => S o.gas o'.gas ∧ o'.velocity = o.velocity ∧ o'.warned = o.warned)
        (cjLoop ct i ρ tolT tolV maxIter fuel s) (cjLoop ct' i' ρ' tolT tolV maxIter fuel s')
  | 0, _, _, _ => trivial
  | fuel + 1, s, s', h => by
    obtain ⟨hg, hT, hv, hdT, hdv, hc⟩ := id h
    have hu : s'.unconverged tolT tolV ↔ s.unconverged tolT tolV := by
      unfold CJ.unconverged; rw [hT, hv, hdT, hdv]
    unfold cjLoop
    by_cases hx : s.unconverged tolT tolV
    · rw [if_pos hx, if_pos (hu.mpr hx), hc]
      by_cases hm : ((s.count + 1 : ℕ) : ℤ) = maxIter
      · rw [if_pos hm, if_pos hm]
        exact ⟨hg, hv, rfl⟩
      · rw [if_neg hm, if_neg hm]
        have hb := cjBody_scale H hk hi hρ h
        cases e : cjBody ct i ρ s <;> cases e' : cjBody ct' i' ρ' s' <;> rw [e, e'] at hb
        · exact hb
        · exact hb.elim
        · exact hb.elim
        · exact cjLoop_scale hi hρ fuel _ _ hb
    · rw [if_neg hx, if_neg (mt hu.mp hx)]
      exact ⟨hg, hv, rfl⟩

theorem cjState_scale {w i : ct.Gas} {w' i' : ct'.Gas} {tolT tolV ratio : ℝ} {maxIter : ℤ} {fuel : ℕ} (hw : S w w')
    (hi : S i i') :
    OMatch (fun (o : CJOut ct) (o' : CJOut ct') => S o.gas o'.gas ∧ o'.velocity = o.velocity ∧ o'.warned = o.warned)
      (cjState ct w i tolT tolV ratio maxIter fuel) (cjState ct' w' i' tolT tolV ratio maxIter fuel) := by
  have hs : Match (fun a b => b.1 = k * a.1 ∧ CJRel S a.2 b.2) (cjStart ct w i ratio) (cjStart ct' w' i' ratio) := by
    unfold cjStart guessDensity
    have hd : Match (fun a b => b = k * a)
        (do let volume ← pyInv (ct.density i); let gv ← pyDiv volume ratio; pyInv gv)
        (do let volume ← pyInv (ct'.density i'); let gv ← pyDiv volume ratio; pyInv gv) := by
      refine (pyInv_scale hk.ne' (H.density hi)).bind fun a a' ha => ?_
      refine (pyDiv_scale (c := 1 / k) (d := 1) one_ne_zero ha (one_mul _).symm).bind fun b b' hb => ?_
      refine (pyInv_scale (d := 1 / k) (by positivity) (by rw [hb]; ring)).mono fun c c' hc => ?_
      rw [hc, one_div_one_div]
    refine hd.bind fun a a' ha => ?_
    refine (equilibrium_scale H hw ha rfl).bind fun g g' hg => ?_
    exact ⟨ha, hg, rfl, rfl, rfl, rfl, rfl⟩
  unfold cjState
  cases e : cjStart ct w i ratio <;> cases e' : cjStart ct' w' i' ratio <;> rw [e, e'] at hs
  · exact hs
  · exact hs.elim
  · exact hs.elim
  · exact cjLoop_scale H hk hi hs.1 _ _ _ hs.2

theorem cjStateDefault_scale {w i : ct.Gas} {w' i' : ct'.Gas} {tolT tolV ratio : ℝ} (hw : S w w') (hi : S i i') :
    Match (fun (o : CJOut ct) (o' : CJOut ct') => S o.gas o'.gas ∧ o'.velocity = o.velocity ∧ o'.warned = o.warned)
      (cjStateDefault ct w i tolT tolV ratio) (cjStateDefault ct' w' i' tolT tolV ratio) := by
  have h := cjState_scale H hk (tolT := tolT) (tolV := tolV) (ratio := ratio) (maxIter := 500) (fuel := 500) hw hi
  unfold cjStateDefault
  cases e : cjState ct w i tolT tolV ratio 500 500 <;> cases e' : cjState ct' w' i' tolT tolV ratio 500 500 <;>
    rw [e, e'] at h
  · rfl
  · exact h.elim
  · exact h.elim
  · exact h

omit hk in
theorem initialGas_scale {T P : ℝ} {species : ct.Species} {species' : ct'.Species} (hX : Q species species') (hD : D T P) {mechanism : String} :
    Match S (initialGas ct T P species mechanism) (initialGas ct' T (k * P) species' mechanism) := by
  unfold initialGas
  exact (H.solution mechanism).bind fun g g' _ => H.setTPX g g' hD hX

theorem overRatio_scale {T P : ℝ} {species : ct.Species} {species' : ct'.Species} (hX : Q species species') (hD : D T P) {mechanism : String} :
    overRatio ct' T (k * P) species' mechanism = overRatio ct T P species mechanism := by
  funext n r
  apply Match.eq
  unfold overRatio
  refine (initialGas_scale H hX hD).bind fun i i' hi => (initialGas_scale H hX hD).bind fun w w' hw => ?_
  refine (cjStateDefault_scale H hk hw hi).bind fun o o' ho => ?_
  rw [Match, ho.2.1]

theorem stateAt_scale {T P r : ℝ} {species : ct.Species} {species' : ct'.Species} (hX : Q species species') (hD : D T P) {mechanism : String} {b : Bool} :
    Match (fun a b => Option.Rel S a b) (stateAt ct T P species mechanism b r)
      (stateAt ct' T (k * P) species' mechanism b r) := by
  unfold stateAt
  cases b
  · exact Option.Rel.none
  · refine (initialGas_scale H hX hD).bind fun i i' hi => (initialGas_scale H hX hD).bind fun w w' hw => ?_
    refine (cjStateDefault_scale H hk hw hi).bind fun o o' ho => ?_
    exact Option.Rel.some ho.1

theorem cjSpeed_scale {collect : Collect} {T P : ℝ} {species : ct.Species} {species' : ct'.Species} (hX : Q species species') (hD : D T P) {mechanism : String} {b c : Bool} :
    Match (fun (o : Speed ct) (o' : Speed ct') => o'.speed = o.speed ∧ o'.rSquared = o.rSquared ∧ Option.Rel S o.state o'.state)
      (cjSpeed ct collect P T species mechanism b c) (cjSpeed ct' collect (k * P) T species' mechanism b c) := by
  unfold cjSpeed
  rw [overRatio_scale H hk hX hD]
  refine (Match.refl (R := fun a b => b = a) (fun _ => rfl) _).bind fun l l' hl => ?_
  subst hl
  cases l'.1 with
  | none => rfl
  | some r =>
    refine (stateAt_scale H hk hX hD).bind fun s s' hs => ?_
    exact ⟨rfl, rfl, hs⟩

omit H in
theorem volumeLimit_scale {V2 V2' V V' d d' : ℝ} (h1 : V2' = 1 / k * V2) (h2 : V' = 1 / k * V)
    (h3 : d' = 1 / k * d) : volumeLimit V2' V' d' = 1 / k * volumeLimit V2 V d := by
  subst h1 h2 h3
  have hk' : 0 < 1 / k := by positivity
  unfold volumeLimit
  by_cases h : V + d > V2
  · rw [if_pos h, if_pos (by rw [← mul_add]; exact mul_lt_mul_of_pos_left h hk')]; ring
  · rw [if_neg h, if_neg (by rw [← mul_add, gt_iff_lt, mul_lt_mul_iff_right₀ hk']; exact h)]; ring

theorem rsBody_scale {u u' V2 V2' : ℝ} {p : ct.Gas} {p' : ct'.Gas} {s : RS ct} {s' : RS ct'} (hp : S p p') (hu : u' = u)
    (hV2 : V2' = 1 / k * V2) (h : RSRel k S s s') :
    Match (fun a b => RSRel k S a b ∧ b.dV = 1 / k * a.dV) (rsBody ct u p V2 s) (rsBody ct' u' p' V2' s') := by
  obtain ⟨hg, hT, hV, -, hc⟩ := h
  have hk' : 0 < 1 / k := by positivity
  unfold rsBody
  refine (pyInv_scale hk'.ne' hV).bind fun ρ ρ' hρ => ?_
  rw [one_div_one_div] at hρ
  refine (errReflected_scale H hk hg hp hu).bind fun e e' he => ?_
  refine (equilibrium_scale H hg hρ (by rw [hT])).bind fun g g' hg2 => ?_
  refine (errReflected_scale H hk hg2 hp hu).bind fun eT eT' heT => ?_
  refine (pyDiv_scale (c := 1) (d := 1) one_ne_zero (by rw [heT.1, he.1]; ring) (by rw [hT]; ring)).bind
    fun a a' ha => ?_
  refine (pyDiv_scale (c := k) (d := 1) one_ne_zero (by rw [heT.2, he.2]; ring) (by rw [hT]; ring)).bind
    fun b b' hb => ?_
  refine (pyInv_scale (d := 1 / k) hk'.ne' (by rw [hV]; ring)).bind fun ρ ρ' hρ' => ?_
  rw [one_div_one_div] at hρ'
  refine (equilibrium_scale H hg2 hρ' hT).bind fun g g' hg3 => ?_
  refine (errReflected_scale H hk hg3 hp hu).bind fun ev ev' hev => ?_
  refine (pyDiv_scale (c := 1) (d := 1 / k) hk'.ne' (by rw [hev.1, he.1]; ring) (by rw [hV]; ring)).bind
    fun c c' hc' => ?_
  refine (pyDiv_scale (c := k) (d := 1 / k) hk'.ne' (by rw [hev.2, he.2]; ring) (by rw [hV]; ring)).bind
    fun d d' hd => ?_
  refine (newton_scale hk (c := 1 / k) hk'.ne' (by rw [ha]; ring) (by rw [hc']; ring) (by rw [hb]; ring)
    (by rw [hd]; ring) he.1 he.2).bind fun n n' hn => ?_
  refine (limit_scale (c := 1) one_pos (by rw [hn.1]; ring) (by rw [hT]; ring)).bind fun l l' hl => ?_
  rw [one_mul] at hl
  refine (limit_scale (c := 1 / k) hk' hn.2 (volumeLimit_scale hk hV2 hV hn.2)).bind fun m m' hm => ?_
  refine (pyInv_scale (d := 1 / k) hk'.ne' (by rw [hV, hm]; ring)).bind fun ρ ρ' hρ2 => ?_
  rw [one_div_one_div] at hρ2
  refine (equilibrium_scale H hg3 hρ2 (by rw [hT, hl])).bind fun g g' hg4 => ?_
  exact ⟨⟨hg4, by change _ + _ = _ + _; rw [hT, hl], by change _ + _ = _ * (_ + _); rw [hV, hm, mul_add], hl,
    by change _ + 1 = _ + 1; rw [hc]⟩, hm⟩

theorem rsLoop_scale {u u' V2 V2' tolT tolV : ℝ} {maxIter : ℤ} {p : ct.Gas} {p' : ct'.Gas} (hp : S p p') (hu : u' = u)
    (hV2 : V2' = 1 / k * V2) :
    ∀ (fuel : ℕ) (s : RS ct) (s' : RS ct'), RSRel k S s s' → (s'.dV = 1 / k * s.dV ∨
        s.unconverged tolT tolV ∧ s'.unconverged tolT tolV) →
      OMatch (fun (o : RSOut ct) (o' : RSOut ct') => S o.gas o'.gas ∧ o'.warned = o.warned)
        (rsLoop ct u p V2 tolT tolV maxIter fuel s) (rsLoop ct' u' p' V2' tolT tolV maxIter fuel s')
  | 0, _, _, _, _ => trivial
  | fuel + 1, s, s', h, hdV => by
    obtain ⟨hg, hT, hV, hdT, hc⟩ := id h
    have hk' : 0 < 1 / k := by positivity
    have hx' : s'.unconverged tolT tolV ↔ s.unconverged tolT tolV := by
      rcases hdV with hdV | ⟨h1, h2⟩
      · unfold RS.unconverged
        rw [hT, hV, hdT, hdV, abs_mul, abs_of_pos hk', mul_left_comm, gt_iff_lt, gt_iff_lt,
          gt_iff_lt, mul_lt_mul_iff_right₀ hk']
      · exact ⟨fun _ => h1, fun _ => h2⟩
    unfold rsLoop
    by_cases hx : s.unconverged tolT tolV
    · rw [if_pos hx, if_pos (hx'.mpr hx), hc]
      by_cases hm : ((s.count + 1 : ℕ) : ℤ) = maxIter
      · rw [if_pos hm, if_pos hm]
        exact ⟨hg, rfl⟩
      · rw [if_neg hm, if_neg hm]
        have hb := rsBody_scale H hk hp hu hV2 h
        cases e : rsBody ct u p V2 s <;> cases e' : rsBody ct' u' p' V2' s' <;> rw [e, e'] at hb
        · exact hb
        · exact hb.elim
        · exact hb.elim
        · exact rsLoop_scale hp hu hV2 fuel _ _ hb.1 (.inl hb.2)
    · rw [if_neg hx, if_neg (mt hx'.mp hx)]
      exact ⟨hg, rfl⟩

theorem getEqState_scale {u u' tolT tolV : ℝ} {maxIter : ℤ} {fuel : ℕ} {p w : ct.Gas} {p' w' : ct'.Gas} (hp : S p p')
    (hw : S w w') (hu : u' = u) (hT : tolT * ct.T w < 1000 ∨ k = 1) :
    OMatch (fun (o : RSOut ct) (o' : RSOut ct') => S o.gas o'.gas ∧ o'.warned = o.warned)
      (getEqState ct u p w tolT tolV maxIter fuel) (getEqState ct' u' p' w' tolT tolV maxIter fuel) := by
  have hs : Match (fun a b => b.1 = 1 / k * a.1 ∧ RSRel k S a.2 b.2 ∧ (b.2.dV = 1 / k * a.2.dV ∨
      a.2.unconverged tolT tolV ∧ b.2.unconverged tolT tolV)) (rsStart ct p w) (rsStart ct' p' w') := by
    unfold rsStart
    refine (pyInv_scale hk.ne' (H.density hp)).bind fun a a' ha => ?_
    refine (pyInv_scale hk.ne' (H.density hw)).bind fun b b' hb => ?_
    refine (equilibrium_scale H hw (H.density hw) (H.T hw)).bind fun g g' hg => ?_
    refine ⟨ha, ⟨hg, H.T hw, hb, rfl, rfl⟩, ?_⟩
    rcases hT with hT | rfl
    · refine .inr ⟨.inl ?_, .inl ?_⟩
      · simpa using hT
      · simpa [H.T hw] using hT
    · left
      norm_num
  unfold getEqState
  cases e : rsStart ct p w <;> cases e' : rsStart ct' p' w' <;> rw [e, e'] at hs
  · exact hs
  · exact hs.elim
  · exact hs.elim
  · exact rsLoop_scale H hk hp hu hs.1 _ _ _ hs.2.1 hs.2.2

theorem getEqStateDefault_scale {u u' : ℝ} {p w : ct.Gas} {p' w' : ct'.Gas} (hp : S p p') (hw : S w w') (hu : u' = u)
    (hT : ct.T w < 10 ^ 7 ∨ k = 1) :
    Match (fun (o : RSOut ct) (o' : RSOut ct') => S o.gas o'.gas ∧ o'.warned = o.warned)
      (getEqStateDefault ct u p w) (getEqStateDefault ct' u' p' w') := by
  have h := getEqState_scale H hk (tolT := 1e-4) (tolV := 1e-4) (maxIter := 500) (fuel := 500) hp hw hu
    (hT.imp_left fun hT => by norm_num at hT ⊢; linarith)
  unfold getEqStateDefault
  cases e : getEqState ct u p w 1e-4 1e-4 500 500 <;> cases e' : getEqState ct' u' p' w' 1e-4 1e-4 500 500 <;>
    rw [e, e'] at h
  · rfl
  · exact h.elim
  · exact h.elim
  · exact h

theorem reflectGuess_scale {p : ct.Gas} {p' : ct'.Gas} {U U' : ℝ} (hp : S p p') (hU : U' = U) :
    Match (fun a b => b.1 = a.1 ∧ b.2 = k * a.2) (reflectGuess ct p U) (reflectGuess ct' p' U') := by
  subst hU
  unfold reflectGuess
  refine (pyInv_scale hk.ne' (H.density hp)).bind fun a a' ha => ?_
  refine (pyDiv_scale (c := 1) hk.ne' (one_mul _).symm (H.density hp)).bind fun b b' hb => ?_
  refine (pyDiv_scale (c := 1 / k) (d := 1 / k) (by positivity) hb ha).bind fun q q' hq => ?_
  rw [div_self (by positivity), one_mul] at hq
  subst hq
  refine (pyDiv_scale (c := 1) (d := 1) one_ne_zero ?_ ?_).bind fun t t' ht => ?_
  · rw [H.T hp, H.P hp, H.density hp, hb]; field_simp
  · rw [H.P hp, ha]; field_simp
  · refine ⟨by change t' = t; rw [ht]; ring, ?_⟩
    change _ + _ = k * (_ + _)
    rw [H.P hp, H.density hp]; ring

theorem particleSpeed_scale {i p : ct.Gas} {i' p' : ct'.Gas} (hi : S i i') (hp : S p p') :
    Match (fun a b => b = a) (particleSpeed ct i p) (particleSpeed ct' i' p') := by
  unfold particleSpeed
  refine (pyInv_scale hk.ne' (H.density hi)).bind fun a a' ha => ?_
  refine (pyInv_scale hk.ne' (H.density hp)).bind fun b b' hb => ?_
  rw [show (ct'.P p' - ct'.P i') * (a' - b') = (ct.P p - ct.P i) * (a - b) by
    rw [H.P hp, H.P hi, ha, hb]; field_simp]
  exact Match.refl (R := fun a b => b = a) (fun _ => rfl) _

theorem reflect_scale {i p w : ct.Gas} {i' p' w' : ct'.Gas} {U U' : ℝ} (hi : S i i') (hp : S p p') (hU : U' = U)
    (hT : ∀ T P, reflectGuess ct p U = .ok (T, P) → (T < 10 ^ 7 ∨ k = 1) ∧ D T P) :
    Match (fun (o : ℝ × ℝ × ct.Gas) (o' : ℝ × ℝ × ct'.Gas) => o'.1 = k * o.1 ∧ o'.2.1 = o.2.1 ∧ S o.2.2 o'.2.2)
      (reflect ct i p w U) (reflect ct' i' p' w' U') := by
  unfold reflect
  refine (particleSpeed_scale H hk hi hp).bind fun u u' hu => ?_
  have hg := reflectGuess_scale H hk hp hU
  cases e : reflectGuess ct p U <;> cases e' : reflectGuess ct' p' U' <;> rw [e, e'] at hg
  · exact hg
  · exact hg.elim
  · exact hg.elim
  · rename_i a b
    obtain ⟨ha, hD⟩ := hT a.1 a.2 e
    rw [ok_bind, ok_bind, hg.1, hg.2]
    have hset := H.setTPX w w' hD (H.X hp)
    cases e2 : ct.setTPX w a.1 a.2 (ct.X p) <;> cases e3 : ct'.setTPX w' a.1 (k * a.2) (ct'.X p') <;>
      rw [e2, e3] at hset
    · exact hset
    · exact hset.elim
    · exact hset.elim
    · rw [ok_bind, ok_bind]
      refine (getEqStateDefault_scale H hk hp hset hu (by rw [H.setTPX_T e2]; exact ha)).bind fun o o' ho => ?_
      refine (pyDiv_scale (c := k) (d := 1) one_ne_zero (by rw [H.P ho.1, H.P hp]; ring) (by rw [hu]; ring)).bind
        fun c c' hc => ?_
      refine (pyDiv_scale (c := k) hk.ne' (by rw [hc]; ring) (H.density hp)).bind fun d d' hd => ?_
      rw [div_self hk.ne', one_mul] at hd
      refine ⟨H.P ho.1, ?_, ho.1⟩
      change _ - _ = _ - _
      rw [hd, hu]

theorem shock_scale {collect : Collect} {reg reg' : Registry} {qT qP qP' : Quantity} {T P : ℝ}
    {species : ct.Species} {species' : ct'.Species} {mechanism : String} {out : ShockState ct}
    (hX : Q species species') (hD : D T P)
    (hD' : ∀ T0 P0, reflectGuess ct out.cjState out.cjSpeed.mag = .ok (T0, P0) → D T0 P0)
    (hT : Denotes reg' (.quantity qT) Dim.temperature T) (hP : Denotes reg' (.quantity qP) Dim.pressure P)
    (hP' : Denotes reg' (.quantity qP') Dim.pressure (k * P))
    (h : reflectedShockState ct collect reg qT qP species mechanism = .ok out)
    (hhot : 0.2 * ct.T out.cjState * (ct.P out.cjState + 0.8 * ct.density out.cjState * out.cjSpeed.mag ^ 2) /
      ct.P out.cjState < 10 ^ 7 ∨ k = 1) :
    ∃ out', reflectedShockState ct' collect reg qT qP' species' mechanism = .ok out' ∧ out'.cjSpeed = out.cjSpeed ∧
      out'.reflectedSpeed = out.reflectedSpeed ∧ S out.cjState out'.cjState ∧
      S out.reflectedState out'.reflectedState := by
  obtain ⟨U, Ur, P3, cold, h1, h2, h3, h4, h5⟩ := (C69_wiring hT hP).mp h
  have m1 := cjSpeed_scale H hk hX hD (collect := collect) (T := T) (P := P) (mechanism := mechanism)
    (b := false) (c := true)
  rw [h1] at m1
  have m2 := initialGas_scale H hX hD (T := T) (P := P) (mechanism := mechanism)
  rw [h2] at m2
  cases e1 : cjSpeed ct' collect (k * P) T species' mechanism false true with
  | error e => rw [e1] at m1; exact m1.elim
  | ok o =>
    cases e2 : initialGas ct' T (k * P) species' mechanism with
    | error e => rw [e2] at m2; exact m2.elim
    | ok cold' =>
      rw [e1] at m1
      rw [e2] at m2
      obtain ⟨m1a, m1b, m1c⟩ := m1
      obtain ⟨od, orr, ost⟩ := o
      simp only at m1a m1b m1c
      subst m1a m1b
      cases m1c with
      | some m1c =>
      rename_i post'
      have m3 := reflect_scale H hk (w := cold) (w' := cold') m2 m1c (rfl : od = od) (by
        intro T0 P0 hg
        refine ⟨?_, hD' T0 P0 (by rw [h4]; exact hg)⟩
        refine hhot.imp_left fun hhot => ?_
        simp only [reflectGuess, bind_eq_ok, pyInv_eq_ok, pyDiv_eq_ok] at hg
        obtain ⟨_, ⟨n1, rfl⟩, _, ⟨-, rfl⟩, _, ⟨-, rfl⟩, _, ⟨n2, rfl⟩, hg⟩ := hg
        simp only [Except.ok.injEq, Prod.mk.injEq] at hg
        obtain ⟨hT0, -⟩ := hg
        rw [← hT0]
        rw [h4] at hhot
        have hP0 : ct.P out.cjState ≠ 0 := left_ne_zero_of_mul n2
        refine lt_of_eq_of_lt ?_ hhot
        field_simp
        ring)
      rw [h3] at m3
      cases e3 : reflect ct' cold' post' cold' od with
      | error e => rw [e3] at m3; exact m3.elim
      | ok r =>
        rw [e3] at m3
        obtain ⟨r1, r2, r3⟩ := r
        obtain ⟨-, m3b, m3c⟩ := m3
        simp only at m3b m3c
        subst m3b
        exact ⟨⟨out.reflectedSpeed, r3, out.cjSpeed, post'⟩, (C69_wiring hT hP').mpr ⟨od, r2, r1, cold', e1, e2, e3, h4, h5⟩,
          rfl, rfl, m1c, m3c⟩

end Chain

section C94

variable {k : ℝ} {S : ct.Gas → ct.Gas → Prop} {collect : Collect} {species : ct.Species} {mechanism : String}

/-- C94: in a gas that scales with pressure the CJ speed and the R² of its fit do not depend on the initial
pressure, and at `k` times the initial pressure the CJ state is the same at `k` times the pressure; and if one
call raises, so does the other, with the same exception. -/
theorem C94_cj_speed (H : PressureFree ct k S) (hk : 0 < k) {T P : ℝ} {b c : Bool} :
    Match (fun o o' : Speed ct => o'.speed = o.speed ∧ o'.rSquared = o.rSquared ∧ Option.Rel S o.state o'.state)
      (cjSpeed ct collect P T species mechanism b c) (cjSpeed ct collect (k * P) T species mechanism b c) :=
  cjSpeed_scale H hk rfl trivial

/-- C94: so does `calculate_reflected_shock_state`: at `k` times the initial pressure (in whatever units) it returns
the same CJ and reflected shock speeds, and CJ and reflected states of the same temperature and `k` times the pressure;
provided the first guess of the reflected temperature, `0.2 T (P + 0.8 ρ D²) / P` of the CJ state, is below ten
million kelvin. -/
theorem C94_reflected_shock (H : PressureFree ct k S) (hk : 0 < k) {reg reg' : Registry} {qT qP qP' : Quantity}
    {T P : ℝ} {out : ShockState ct}
    (hT : Denotes reg' (.quantity qT) Dim.temperature T) (hP : Denotes reg' (.quantity qP) Dim.pressure P)
    (hP' : Denotes reg' (.quantity qP') Dim.pressure (k * P))
    (h : reflectedShockState ct collect reg qT qP species mechanism = .ok out)
    (hhot : 0.2 * ct.T out.cjState * (ct.P out.cjState + 0.8 * ct.density out.cjState * out.cjSpeed.mag ^ 2) /
      ct.P out.cjState < 10 ^ 7) :
    ∃ out', reflectedShockState ct collect reg qT qP' species mechanism = .ok out' ∧ out'.cjSpeed = out.cjSpeed ∧
      out'.reflectedSpeed = out.reflectedSpeed ∧
      ct.T out'.cjState = ct.T out.cjState ∧ ct.P out'.cjState = k * ct.P out.cjState ∧
      ct.T out'.reflectedState = ct.T out.reflectedState ∧
      ct.P out'.reflectedState = k * ct.P out.reflectedState := by
  obtain ⟨o, h1, h2, h3, h4, h5⟩ := shock_scale H hk rfl trivial (fun _ _ _ => trivial) hT hP hP' h (.inl hhot)
  exact ⟨o, h1, h2, h3, H.T h4, H.P h4, H.T h5, H.P h5⟩

end C94

/-- C95: what happens inside Cantera has no influence: two gas models that answer alike (the same temperature,
pressure, density and enthalpy after the same operations) give the same speeds and equal temperatures and pressures
of both states. -/
theorem C95_same_answers {ct' : Cantera} {S : ct.Gas → ct'.Gas → Prop} {Q : ct.Species → ct'.Species → Prop}
    (H : Scaled ct ct' 1 (fun _ _ => True) S Q) {collect : Collect} {reg reg' : Registry} {qT qP : Quantity} {T P : ℝ}
    {species : ct.Species} {species' : ct'.Species} {mechanism : String} {out : ShockState ct}
    (hX : Q species species')
    (hT : Denotes reg' (.quantity qT) Dim.temperature T) (hP : Denotes reg' (.quantity qP) Dim.pressure P)
    (h : reflectedShockState ct collect reg qT qP species mechanism = .ok out) :
    ∃ out', reflectedShockState ct' collect reg qT qP species' mechanism = .ok out' ∧ out'.cjSpeed = out.cjSpeed ∧
      out'.reflectedSpeed = out.reflectedSpeed ∧ S out.cjState out'.cjState ∧
      S out.reflectedState out'.reflectedState :=
  shock_scale H one_pos hX trivial (fun _ _ _ => trivial) hT hP (by rw [one_mul]; exact hP) h (.inr rfl)

/-- A gas model that counts what is done to it, for instance, gives the same results. -/
def counted (ct : Cantera) : Cantera where
  Gas := ct.Gas × ℕ
  Species := ct.Species
  solution := fun m p => (ct.solution m p).map fun g => (g, 0)
  setTPX := fun g T P x => (ct.setTPX g.1 T P x).map fun g' => (g', g.2 + 1)
  setTD := fun g T D => (ct.setTD g.1 T D).map fun g' => (g', g.2 + 1)
  setSP := fun g s P => (ct.setSP g.1 s P).map fun g' => (g', g.2 + 1)
  equilibrate := fun g m => (ct.equilibrate g.1 m).map fun g' => (g', g.2 + 1)
  T := fun g => ct.T g.1
  P := fun g => ct.P g.1
  density := fun g => ct.density g.1
  s := fun g => ct.s g.1
  enthalpy := fun g => ct.enthalpy g.1
  viscosity := fun g => ct.viscosity g.1
  X := fun g => ct.X g.1
  flameSpeed := fun g => ct.flameSpeed g.1

example : Scaled (tvGas exP exH) (counted (tvGas exP exH)) 1 (fun _ _ => True) (fun g g' => g'.1 = g) Eq where
  T h := by subst h; rfl
  P h := by subst h; exact (one_mul _).symm
  density h := by subst h; exact (one_mul _).symm
  enthalpy h := by subst h; rfl
  X _ := rfl
  solution _ := trivial
  setTD {g g'} T ρ h := by rw [one_mul]; rfl
  equilibrate h := h
  setTPX_T {g g' T P x} h := by
    cases h
    rfl
  setTPX g g' T P x x' _ _ := rfl

/-! ### A gas that scales with pressure and for which everything runs -/

/-- State of the example gas: temperature, density, and the unit of density set by the last pressure. -/
structure MGas where
  T : ℝ
  rho : ℝ
  unit : ℝ

/-- The pressure of the first guess of the reflected state in the example. -/
noncomputable def exPg : ℝ := 16900000 / 9 + 5760000

/-- The gas of `Props/Reflected.lean`, made to scale with pressure: densities and pressures are in units of the
pressure it was last set to. -/
noncomputable def memGas : Cantera where
  Gas := MGas
  Species := Unit
  solution := fun _ _ => .ok ⟨300, 1, 1⟩
  setTPX := fun _ T P _ => .ok (if T ≤ 1000 then ⟨T, P / 101325, P / 101325⟩ else ⟨T, 9 * (P / exPg), P / exPg⟩)
  setTD := fun g T D => .ok ⟨T, D, g.unit⟩
  setSP := fun g _ _ => .ok g
  equilibrate := fun g _ => .ok g
  T := fun g => g.T
  P := fun g => g.unit * exP g.T (g.rho / g.unit)
  density := fun g => g.rho
  s := fun _ => 0
  enthalpy := fun g => exH g.T (g.rho / g.unit)
  viscosity := fun _ => .ok 1
  X := fun _ => ()
  flameSpeed := fun _ => .ok 1

theorem memGas_pressureFree {k : ℝ} (hk : 0 < k) :
    PressureFree memGas k (fun g g' : MGas => g'.T = g.T ∧ g'.rho = k * g.rho ∧ g'.unit = k * g.unit) where
  T h := h.1
  P {g g'} h := by
    obtain ⟨h1, h2, h3⟩ := h
    change g'.unit * exP g'.T (g'.rho / g'.unit) = k * (g.unit * exP g.T (g.rho / g.unit))
    rw [h1, h2, h3, mul_div_mul_left _ _ hk.ne', mul_assoc]
  density h := h.2.1
  enthalpy {g g'} h := by
    obtain ⟨h1, h2, h3⟩ := h
    change exH g'.T (g'.rho / g'.unit) = exH g.T (g.rho / g.unit)
    rw [h1, h2, h3, mul_div_mul_left _ _ hk.ne']
  X _ := rfl
  solution _ := trivial
  setTD {g g'} T ρ h := ⟨rfl, rfl, h.2.2⟩
  equilibrate h := h
  setTPX_T {g g' T P x} h := by
    have h' : (if T ≤ 1000 then (⟨T, P / 101325, P / 101325⟩ : MGas) else ⟨T, 9 * (P / exPg), P / exPg⟩) = g' :=
      Except.ok.inj h
    change MGas.T g' = T
    rw [← h']
    split <;> rfl
  setTPX g g' T P x x' _ _ := by
    change MGas.T (if T ≤ 1000 then _ else _) = MGas.T (if T ≤ 1000 then _ else _) ∧
      MGas.rho (if T ≤ 1000 then _ else _) = k * MGas.rho (if T ≤ 1000 then _ else _) ∧
      MGas.unit (if T ≤ 1000 then _ else _) = k * MGas.unit (if T ≤ 1000 then _ else _)
    by_cases hT : T ≤ 1000
    · simp only [if_pos hT, mul_div_assoc, and_self]
    · simp only [if_neg hT, mul_div_assoc, true_and, and_true]
      ring

theorem memGas_answers : Scaled (tvGas exP exH) memGas 1
    (fun T P => (T ≤ 1000 → P = 101325) ∧ (1000 < T → P = exPg))
    (fun (g : ℝ × ℝ) (g' : MGas) => g'.T = g.1 ∧ g'.rho = g.2 ∧ g'.unit = 1) (fun _ _ => True) where
  T h := h.1
  P {g g'} h := by
    obtain ⟨h1, h2, h3⟩ := h
    change g'.unit * exP g'.T (g'.rho / g'.unit) = 1 * exP g.1 g.2
    rw [h1, h2, h3, div_one]
  density {g g'} h := by
    change g'.rho = 1 * g.2
    rw [h.2.1, one_mul]
  enthalpy {g g'} h := by
    obtain ⟨h1, h2, h3⟩ := h
    change exH g'.T (g'.rho / g'.unit) = exH g.1 g.2
    rw [h1, h2, h3, div_one]
  X _ := trivial
  solution _ := trivial
  setTD {g g'} T ρ h := ⟨rfl, one_mul _, h.2.2⟩
  equilibrate h := h
  setTPX_T {g g' T P x} h := by
    cases h
    rfl
  setTPX g g' T P x x' hD _ := by
    change MGas.T (if T ≤ 1000 then _ else _) = T ∧
      MGas.rho (if T ≤ 1000 then _ else _) = (if T ≤ 1000 then 1 else 9) ∧
      MGas.unit (if T ≤ 1000 then _ else _) = 1
    have hg : exPg ≠ 0 := by norm_num [exPg]
    by_cases hT : T ≤ 1000
    · rw [if_pos hT, if_pos hT, hD.1 hT]
      norm_num
    · rw [if_neg hT, if_neg hT, hD.2 (not_le.mp hT)]
      simp only [one_mul, div_self hg, mul_one, and_self]

/-- At 20 degC and 1 atm that gas has the shock of the example of C69: the hypotheses of the theorems above are met. -/
theorem memGas_shock : ∃ one, reflectedShockState memGas serial reg ⟨20, PUnit.degC, 0⟩ ⟨1, PUnit.atm, reg.id⟩ ()
      mechanism = .ok one ∧ one.cjSpeed = ⟨2000, PUnit.meterPerSecond, reg.id⟩ ∧
    0.2 * memGas.T one.cjState * (memGas.P one.cjState + 0.8 * memGas.density one.cjState * one.cjSpeed.mag ^ 2) /
      memGas.P one.cjState < 10 ^ 7 ∧ 0 < memGas.P one.cjState ∧ memGas.P one.reflectedState = 32900000 / 9 := by
  have H := tvGas_isTV exP exH
  have h := ex_shock H serial_fair (T := 293.15) (P := 101325) (reg' := reg) (reg := reg)
    (species := ()) (mechanism := mechanism) (qT := ⟨20, PUnit.degC, 0⟩) (qP := ⟨1, PUnit.atm, reg.id⟩) (by norm_num)
    ⟨rfl, by norm_num [PUnit.degC]⟩ ⟨rfl, by norm_num [PUnit.atm]⟩
  obtain ⟨one, h1, h2, -, h4, h5⟩ := shock_scale memGas_answers one_pos (species' := ()) (T := 293.15) (P := 101325)
    (reg' := reg) (qP' := ⟨1, PUnit.atm, reg.id⟩) trivial
    ⟨fun _ => rfl, fun hc => by norm_num at hc⟩ (by
      intro T0 P0 hg
      have e2 : exP 2100 1.8 = 16900000 / 9 := by norm_num [exP, exV]
      have n1 : (1.8 : ℝ) ≠ 0 := by norm_num
      have n2 : (1 / 1.8 : ℝ) ≠ 0 := by norm_num
      simp only [reflectGuess, H.density, H.P, H.T, e2, pyInv_ok n1, pyDiv_ok n1, pyDiv_ok n2, ok_bind] at hg
      rw [pyDiv_ok (by norm_num), ok_bind] at hg
      simp only [Except.ok.injEq, Prod.mk.injEq] at hg
      obtain ⟨hg1, hg2⟩ := hg
      refine ⟨fun hc => ?_, fun _ => ?_⟩
      · rw [← hg1] at hc
        norm_num at hc
      · rw [← hg2, exPg]
        norm_num) ⟨rfl, by norm_num [PUnit.degC]⟩ ⟨rfl, by norm_num [PUnit.atm]⟩ ⟨rfl, by norm_num [PUnit.atm]⟩ h
    (.inr rfl)
  have e2 : exP 2100 1.8 = 16900000 / 9 := by norm_num [exP, exV]
  have e3 : exP exTg 9 = 32900000 / 9 := by norm_num [exP]
  refine ⟨one, h1, h2, ?_, ?_, ?_⟩
  · rw [h2, memGas_answers.T h4, memGas_answers.P h4, memGas_answers.density h4, H.T, H.P, H.density, e2]
    norm_num
  · rw [memGas_answers.P h4, H.P, e2]; norm_num
  · rw [memGas_answers.P h5, H.P, e3, one_mul]

end Pypbomb.SD

namespace Pypbomb.Tube

open Pypbomb SD

variable {ct : Cantera}

/-- C94: in a gas that scales with pressure, one successful shock calculation at 1 atm (with positive pressures and a
load factor `δ`) decides the whole search: `calculate_max_initial_pressure` for the reflected state and a limit of `M`
pascals returns `M / (δ P₃)` atmospheres, `P₃` being the reflected pressure at 1 atm, and there the reflected
pressure times the load factor is exactly the limit. -/
theorem C94_max_initial {S : ℝ → ct.Gas → ct.Gas → Prop} (H : ∀ k, 0 < k → PressureFree ct k (S k))
    {collect : Collect} {reg : Registry} {xi xo xE xr : QIn} {qT max : Quantity} {species : ct.Species}
    {mechanism : String} {nu pm tol T δ M : ℝ} {maxIter : ℤ} {one : ShockState ct}
    (hT : Denotes reg (.quantity qT) Dim.temperature T)
    (h1 : reflectedShockState ct collect reg qT ⟨1, PUnit.atm, reg.id⟩ species mechanism = .ok one)
    (hhot : 0.2 * ct.T one.cjState * (ct.P one.cjState + 0.8 * ct.density one.cjState * one.cjSpeed.mag ^ 2) /
      ct.P one.cjState < 10 ^ 7)
    (p2 : 0 < ct.P one.cjState) (p3 : 0 < ct.P one.reflectedState)
    (hδ : dynamicLoadFactor xi xo (.quantity one.cjSpeed) xE xr nu pm = .ok δ) (hδ0 : 0 < δ) (hδ4 : δ ≤ 4)
    (hM : max.unit = PUnit.pascal) (hm : max.phys = M) (hM8 : 8 ≤ M) (htol : |tol| < 1 / 2) (hit : 1 ≤ maxIter) :
    ∃ p o, calculateMaxInitialPressure ct collect reg xi xo qT species mechanism max xE xr nu pm true tol maxIter
        "reflected" true = .ok (p, some δ) ∧
      p = ⟨M / (δ * ct.P one.reflectedState), PUnit.atm, reg.id⟩ ∧
      reflectedShockState ct collect reg qT p species mechanism = .ok o ∧ o.cjSpeed = one.cjSpeed ∧
      ct.P o.reflectedState * δ = M := by
  have hmag : max.mag = M := by rw [← hm]; simp [Quantity.phys, hM, PUnit.pascal, PUnit.base]
  have h1atm : Denotes reg (.quantity ⟨1, PUnit.atm, reg.id⟩) Dim.pressure 101325 := ⟨rfl, by norm_num [PUnit.atm]⟩
  have key : ∀ (p : Quantity) (P : ℝ), Denotes reg (.quantity p) Dim.pressure P → 0 < P →
      ∃ o, reflectedShockState ct collect reg qT p species mechanism = .ok o ∧ o.cjSpeed = one.cjSpeed ∧
        ct.P o.cjState = ct.P one.cjState / 101325 * P ∧
        ct.P o.reflectedState = ct.P one.reflectedState / 101325 * P := by
    intro p P hp hP0
    have hk : 0 < P / 101325 := by positivity
    obtain ⟨o, e, o1, -, -, o3, -, o4⟩ := C94_reflected_shock (H _ hk) hk hT h1atm
      (qP' := p) (by rw [div_mul_cancel₀ _ (by norm_num)]; exact hp) h1 hhot
    refine ⟨o, e, o1, ?_, ?_⟩
    · rw [o3]; ring
    · rw [o4]; ring
  have hprop : Proportional (gasShock ct collect reg qT species mechanism)
      (fun v => dynamicLoadFactor xi xo (.quantity v) xE xr nu pm) (ct.P one.reflectedState / 101325)
      (ct.P one.cjState / 101325) δ := by
    refine ⟨fun p P r hp hP0 => ?_, by positivity, by positivity, hδ0⟩
    obtain ⟨o, e, o1, o2, o3⟩ := key p P ⟨hp.dim, hp.phys⟩ hP0
    refine ⟨⟨o.cjSpeed, ct.P o.cjState, ct.P o.reflectedState⟩, ?_, o3, o2, ?_⟩
    · unfold gasShock; rw [e]; rfl
    · simp only [o1]; exact hδ
  obtain ⟨f, hf, -, -, f3, f4, s, hs, hs'⟩ := C36_exact_for_proportional_gas (reg := reg) (max := max) (tol := tol)
    (maxIter := maxIter) hprop (by linarith) hit (by
      have : δ / max.mag ≤ 1 / 2 := by rw [hmag, div_le_iff₀ (by linarith)]; linarith
      rw [abs_of_neg (by linarith : δ / max.mag - 1 < 0)]; linarith)
  have hc : calculateMaxInitialPressure ct collect reg xi xo qT species mechanism max xE xr nu pm true tol maxIter
        "reflected" true = .ok (f.pressure, some δ) := by
    unfold calculateMaxInitialPressure initialPressureSearch
    rw [hf, ok_bind, f3]; rfl
  obtain ⟨u1, u2, -⟩ := C73_result hc
  obtain ⟨o, e, o1, -, o3⟩ := key f.pressure _ ⟨f4.dim, f4.phys⟩ (by rw [hmag]; positivity)
  refine ⟨f.pressure, o, hc, ?_, e, o1, ?_⟩
  · have hv := f4.val
    rw [u1, hmag] at hv
    have hscale : PUnit.atm.scale = 101325 := by norm_num [PUnit.atm]
    rw [hscale] at hv
    have hmag2 : f.pressure.mag = M / (δ * ct.P one.reflectedState) := by
      rw [eq_div_iff (by positivity)]
      field_simp at hv
      linarith
    calc f.pressure = ⟨f.pressure.mag, f.pressure.unit, f.pressure.reg⟩ := rfl
      _ = _ := by rw [hmag2, u1, u2]
  · rw [o3, hmag]; field_simp

/-- In a 4 x 4.5 inch steel tube (load factor 2) with a limit of 15 MPa, the gas above: the theorem applies. -/
example : ∃ p o, calculateMaxInitialPressure memGas serial reg (.quantity ⟨4, PUnit.inch, 0⟩)
      (.quantity ⟨4.5, PUnit.inch, 0⟩) ⟨20, PUnit.degC, 0⟩ () mechanism ⟨15000000, PUnit.pascal, 0⟩
      (.quantity ⟨200, PUnit.gigapascal, 0⟩) (.quantity ⟨7.8, PUnit.gramPerCC, 0⟩) 0.28 0.1 true 0.0001 500
      "reflected" true = .ok (p, some 2) ∧
    reflectedShockState memGas serial reg ⟨20, PUnit.degC, 0⟩ p () mechanism = .ok o ∧
    memGas.P o.reflectedState * 2 = 15000000 := by
  obtain ⟨one, h1, h2, h3, h4, h5⟩ := memGas_shock (reg := reg) (mechanism := mechanism)
  obtain ⟨p, o, e1, -, e3, -, e5⟩ := C94_max_initial (S := fun k (g g' : MGas) => g'.T = g.T ∧ g'.rho = k * g.rho ∧
      g'.unit = k * g.unit) (fun k hk => memGas_pressureFree hk) (T := 293.15) (M := 15000000)
    (max := ⟨15000000, PUnit.pascal, 0⟩) (tol := 0.0001) (maxIter := 500)
    ⟨rfl, by norm_num [PUnit.degC]⟩ h1 h3 h4 (by rw [h5]; norm_num) (by rw [h2]; exact ex_dlf)
    (by norm_num) (by norm_num) rfl (by norm_num [Quantity.phys, PUnit.pascal, PUnit.base]) (by norm_num)
    (by norm_num [abs_lt]) (by norm_num)
  exact ⟨p, o, e1, e3, e5⟩

end Pypbomb.Tube
