/-
C55-C60, C64, C65: jump conditions and the two Newton iterations of sd.py.
-/
import Verif.Spec
import Verif.Lemmas.SD

namespace Pypbomb.SD

variable {ct : Cantera}

/-! ### Specification: conservation laws -/

/-- Mass, momentum and energy balance across a steady wave: upstream density, pressure, specific enthalpy
and speed `ρ₁ P₁ h₁ U`, downstream `ρ₂ P₂ h₂ w` (speeds relative to the wave). -/
structure Conserved (ρ₁ P₁ h₁ U ρ₂ P₂ h₂ w : ℝ) : Prop where
  mass : ρ₁ * U = ρ₂ * w
  momentum : P₁ + ρ₁ * U ^ 2 = P₂ + ρ₂ * w ^ 2
  energy : h₁ + U ^ 2 / 2 = h₂ + w ^ 2 / 2

/-! ### C55, C56 -/

/-- C55: both errors vanish iff mass, momentum and energy are conserved across a wave of the guessed speed
`U` (for some speed of the products relative to it). -/
theorem C55_rankine_hugoniot (working initial : ct.Gas) (U : ℝ) (hρ : ct.density working ≠ 0) :
    errEquilibrium ct working initial U = .ok (0, 0) ↔
      ∃ w, Conserved (ct.density initial) (ct.P initial) (ct.enthalpy initial) U
        (ct.density working) (ct.P working) (ct.enthalpy working) w := by
  simp only [errEquilibrium, pyDiv_ok hρ, ok_bind, Except.ok.injEq, Prod.mk.injEq]
  constructor
  · rintro ⟨h1, h2⟩
    refine ⟨U * ct.density initial / ct.density working, ?_, ?_, ?_⟩
    · field_simp
    · linarith
    · linarith
  · rintro ⟨w, hm, hp, he⟩
    have : w = U * ct.density initial / ct.density working := by
      rw [eq_div_iff hρ]; linarith
    rw [← this]
    constructor <;> linarith

/-- C55: for every other pair the errors are the defects of energy and momentum at the speed given by mass
conservation. -/
theorem C55_errors (working initial : ct.Gas) (U w : ℝ) (hρ : ct.density working ≠ 0)
    (hm : ct.density initial * U = ct.density working * w) :
    errEquilibrium ct working initial U =
      .ok (ct.enthalpy working + w ^ 2 / 2 - (ct.enthalpy initial + U ^ 2 / 2),
        ct.P working + ct.density working * w ^ 2 - (ct.P initial + ct.density initial * U ^ 2)) := by
  have : w = U * ct.density initial / ct.density working := by
    rw [eq_div_iff hρ]; linarith
  simp only [errEquilibrium, pyDiv_ok hρ, ok_bind, ← this, Except.ok.injEq, Prod.mk.injEq]
  refine ⟨by ring, trivial⟩

/-- C56: both errors vanish iff some reflected shock speed `Ur` (relative to the wall) conserves mass,
momentum and energy between the gas moving at `u` and the gas at rest behind the shock. -/
theorem C56_reflected_jump (working post : ct.Gas) (u : ℝ) (h3 : 0 < ct.density working)
    (h2 : 0 < ct.density post) (hne : ct.density working ≠ ct.density post) :
    errReflected ct u working post = .ok (0, 0) ↔
      ∃ Ur, Conserved (ct.density post) (ct.P post) (ct.enthalpy post) (Ur + u)
        (ct.density working) (ct.P working) (ct.enthalpy working) Ur := by
  have hd : ct.density working - ct.density post ≠ 0 := sub_ne_zero.mpr hne
  have hr : ct.density working / ct.density post - 1 ≠ 0 := by
    rw [div_sub_one h2.ne']; exact div_ne_zero hd h2.ne'
  simp only [errReflected, pyDiv_ok h2.ne', pyDiv_ok hr, ok_bind, Except.ok.injEq, Prod.mk.injEq]
  have e1 : ct.density working / ct.density post - 1 =
      (ct.density working - ct.density post) / ct.density post := div_sub_one h2.ne' 
  have e2 : ct.density working / ct.density post + 1 =
      (ct.density working + ct.density post) / ct.density post := div_add_one h2.ne'
  rw [e1, e2]
  have kh : 0.5 * u ^ 2 * ((ct.density working + ct.density post) / ct.density post) /
      ((ct.density working - ct.density post) / ct.density post) =
      u ^ 2 / 2 * (ct.density working + ct.density post) / (ct.density working - ct.density post) := by
    field_simp; norm_num; ring
  have kp : ct.density working * u ^ 2 / ((ct.density working - ct.density post) / ct.density post) =
      ct.density working * ct.density post * u ^ 2 / (ct.density working - ct.density post) := by
    field_simp
  rw [kh, kp]
  generalize ct.density working = ρ3 at *
  generalize ct.density post = ρ2 at *
  constructor
  · rintro ⟨hh, hp⟩
    refine ⟨ρ2 * u / (ρ3 - ρ2), ?_, ?_, ?_⟩
    · field_simp; ring
    · have : ρ2 * (ρ2 * u / (ρ3 - ρ2) + u) ^ 2 - ρ3 * (ρ2 * u / (ρ3 - ρ2)) ^ 2 =
          ρ3 * ρ2 * u ^ 2 / (ρ3 - ρ2) := by field_simp; ring
      linarith
    · have : (ρ2 * u / (ρ3 - ρ2) + u) ^ 2 / 2 - (ρ2 * u / (ρ3 - ρ2)) ^ 2 / 2 =
          u ^ 2 / 2 * (ρ3 + ρ2) / (ρ3 - ρ2) := by field_simp; ring
      linarith
  · rintro ⟨Ur, hm, hp, he⟩
    have hU : Ur = ρ2 * u / (ρ3 - ρ2) := by
      rw [eq_div_iff hd]; linarith
    subst hU
    constructor
    · have : (ρ2 * u / (ρ3 - ρ2) + u) ^ 2 / 2 - (ρ2 * u / (ρ3 - ρ2)) ^ 2 / 2 =
          u ^ 2 / 2 * (ρ3 + ρ2) / (ρ3 - ρ2) := by field_simp; ring
      linarith
    · have : ρ2 * (ρ2 * u / (ρ3 - ρ2) + u) ^ 2 - ρ3 * (ρ2 * u / (ρ3 - ρ2)) ^ 2 =
          ρ3 * ρ2 * u ^ 2 / (ρ3 - ρ2) := by field_simp; ring
      linarith

/-- C56: equal densities are rejected (division by zero), they admit no reflected shock unless `u = 0`. -/
theorem C56_equal_densities (working post : ct.Gas) (u : ℝ) (h : ct.density working = ct.density post) :
    errReflected ct u working post = .error .zeroDivision := by
  unfold errReflected
  rw [h]
  by_cases h0 : ct.density post = 0
  · simp [pyDiv, h0]
  · simp [pyDiv, h0]

/-! ### C57 -/

/-- C57: the particle speed used by `reflect` is the one the conservation of mass and momentum across the
incident wave implies. -/
theorem C57_particle_speed {initial post : ct.Gas} {u : ℝ} (h : particleSpeed ct initial post = .ok u) {U w : ℝ}
    (h1 : 0 < ct.density initial) (h2 : 0 < ct.density post)
    (hm : ct.density initial * U = ct.density post * w)
    (hp : ct.P initial + ct.density initial * U ^ 2 = ct.P post + ct.density post * w ^ 2)
    (hw : w ≤ U) : u = U - w := by
  simp only [particleSpeed, bind_eq_ok, pyInv_eq_ok, npSqrt_eq_ok] at h
  obtain ⟨_, ⟨-, rfl⟩, _, ⟨-, rfl⟩, -, rfl⟩ := h
  have hP : ct.P post - ct.P initial = ct.density initial * U ^ 2 - ct.density post * w ^ 2 := by linarith
  rw [hP]
  generalize ct.density initial = ρ1 at *
  generalize ct.density post = ρ2 at *
  have : (ρ1 * U ^ 2 - ρ2 * w ^ 2) * (1 / ρ1 - 1 / ρ2) = (U - w) ^ 2 := by
    have hw' : w = ρ1 * U / ρ2 := by rw [eq_div_iff h2.ne']; linarith
    rw [hw']; field_simp
  rw [this]
  exact Real.sqrt_sq (by linarith)

/-- C57: the particle speed exists whenever the wave compresses (pressure and density both rise or both fall). -/
theorem C57_particle_speed_defined {initial post : ct.Gas} (h1 : 0 < ct.density initial)
    (h2 : 0 < ct.density post) (hc : 0 ≤ (ct.P post - ct.P initial) * (ct.density post - ct.density initial)) :
    Returns (particleSpeed ct initial post) := by
  unfold particleSpeed
  rw [pyInv_ok h1.ne', pyInv_ok h2.ne', ok_bind, ok_bind]
  refine ⟨_, npSqrt_ok ?_⟩
  have : (ct.P post - ct.P initial) * (1 / ct.density initial - 1 / ct.density post) =
      (ct.P post - ct.P initial) * (ct.density post - ct.density initial) /
        (ct.density initial * ct.density post) := by field_simp
  rw [this]; positivity

/-- What `reflect` returned: the particle speed, the final gas, its pressure, and a speed for which the
momentum equation between the moving and the stopped gas holds. -/
theorem C57_momentum {initial post working g : ct.Gas} {U P Ur : ℝ}
    (h : reflect ct initial post working U = .ok (P, Ur, g)) :
    ∃ u, particleSpeed ct initial post = .ok u ∧ P = ct.P g ∧
      ct.density post * (Ur + u) * u = P - ct.P post := by
  simp only [reflect, bind_eq_ok, pyDiv_eq_ok] at h
  obtain ⟨u, hu, guess, -, w, -, out, -, a, ⟨hu0, rfl⟩, b, ⟨hρ, rfl⟩, h⟩ := h
  simp only [Except.ok.injEq, Prod.mk.injEq] at h
  obtain ⟨rfl, rfl, rfl⟩ := h
  refine ⟨u, hu, rfl, ?_⟩
  field_simp
  ring

/-- C57: if the state found has no pressure error, the returned speed conserves mass and momentum; if it has no
error at all, energy too. -/
theorem C57_reflected_speed {initial post working g : ct.Gas} {U P Ur u eh : ℝ}
    (h : reflect ct initial post working U = .ok (P, Ur, g)) (hu : particleSpeed ct initial post = .ok u)
    (h3 : 0 < ct.density g) (h2 : 0 < ct.density post) (he : errReflected ct u g post = .ok (eh, 0)) :
    ct.density post * (Ur + u) = ct.density g * Ur ∧
    ct.P post + ct.density post * (Ur + u) ^ 2 = ct.P g + ct.density g * Ur ^ 2 ∧
    (eh = 0 → ct.enthalpy post + (Ur + u) ^ 2 / 2 = ct.enthalpy g + Ur ^ 2 / 2) := by
  have hu0 : u ≠ 0 := by
    simp only [reflect, bind_eq_ok, pyDiv_eq_ok] at h
    obtain ⟨u', hu', guess, -, w, -, out, -, a, ⟨hu0, -⟩, -⟩ := h
    rw [hu, Except.ok.injEq] at hu'
    rw [hu']; exact hu0
  obtain ⟨u', hu', rfl, hmom⟩ := C57_momentum h
  rw [hu, Except.ok.injEq] at hu'
  subst hu'
  have hne : ct.density g ≠ ct.density post := fun hc => by
    rw [C56_equal_densities g post u hc] at he; cases he
  have hd : ct.density g - ct.density post ≠ 0 := sub_ne_zero.mpr hne
  have he' := he
  simp only [errReflected, bind_eq_ok, pyDiv_eq_ok, Except.ok.injEq, Prod.mk.injEq] at he
  obtain ⟨_, ⟨-, rfl⟩, _, ⟨hr, rfl⟩, _, ⟨-, rfl⟩, -, hp⟩ := he
  have kp : ct.density g * u ^ 2 / (ct.density g / ct.density post - 1) =
      ct.density g * ct.density post * u ^ 2 / (ct.density g - ct.density post) := by
    rw [div_sub_one h2.ne']; field_simp
  rw [kp] at hp
  have key : Ur = ct.density post * u / (ct.density g - ct.density post) := by
    have h4 : ct.density post * (Ur + u) * u =
        ct.density g * ct.density post * u ^ 2 / (ct.density g - ct.density post) := by linarith
    rw [eq_div_iff hd] at h4 ⊢
    have h5 : (ct.density post * u) * (Ur * (ct.density g - ct.density post)) =
        (ct.density post * u) * (ct.density post * u) := by linear_combination h4
    exact mul_left_cancel₀ (mul_ne_zero h2.ne' hu0) h5
  have hmass : ct.density post * (Ur + u) = ct.density g * Ur := by
    rw [key]; field_simp; ring
  refine ⟨hmass, ?_, fun h0 => ?_⟩
  · have : ct.density post * (Ur + u) ^ 2 - ct.density g * Ur ^ 2 = ct.density post * (Ur + u) * u := by
      linear_combination Ur * hmass
    linarith
  · rw [h0] at he'
    obtain ⟨Ur', c1, -, c3⟩ := (C56_reflected_jump g post u h3 h2 hne).mp he'
    have : Ur' = Ur := by
      rw [key, eq_div_iff hd]; linarith
    rw [← this]; exact c3

/-! ### C58 -/

/-- An iterate of `cj_state`: guess temperature and velocity, gas, the steps that led there (1000, 1000 at the
start) and the number of updates made.  `s` comes from `prev` by one update. -/
def CJStep (ct : Cantera) (initial : ct.Gas) (density : ℝ) (prev s : CJ ct) : Prop :=
  cjBody ct initial density prev = .ok s

/-- `s` is the `n`-th iterate, and no earlier one had met the tolerances. -/
inductive CJIterate (ct : Cantera) (initial : ct.Gas) (density tolT tolV : ℝ) (s0 : CJ ct) : ℕ → CJ ct → Prop
  | start : CJIterate ct initial density tolT tolV s0 0 s0
  | step {n : ℕ} {s s' : CJ ct} : CJIterate ct initial density tolT tolV s0 n s →
      (tolT * s.T < |s.dT| ∨ tolV * s.v < |s.dv|) → CJStep ct initial density s s' →
      CJIterate ct initial density tolT tolV s0 (n + 1) s'

theorem cjIterate_iff {initial : ct.Gas} {density tolT tolV : ℝ} {s0 s : CJ ct} {n : ℕ} :
    CJIterate ct initial density tolT tolV s0 n s ↔
      Reached (cjBody ct initial density) (CJ.unconverged tolT tolV) s0 n s := by
  constructor
  · intro h
    induction h with
    | start => exact .start
    | step _ hu hb ih => exact .step ih hu hb
  · intro h
    induction h with
    | start => exact .start
    | step _ hu hb ih => exact .step ih hu hb

theorem cjStart_ok {working initial : ct.Gas} {ratio density : ℝ} {s : CJ ct}
    (h : cjStart ct working initial ratio = .ok (density, s)) :
    ct.density initial ≠ 0 ∧ ratio ≠ 0 ∧ density = ct.density initial * ratio ∧
      equilibrium ct working density 2000 = .ok s.gas ∧
      s.T = 2000 ∧ s.v = 2000 ∧ s.dT = 1000 ∧ s.dv = 1000 ∧ s.count = 0 := by
  simp only [cjStart, guessDensity, bind_eq_ok, pyInv_eq_ok, pyDiv_eq_ok] at h
  obtain ⟨d, ⟨_, ⟨h1, rfl⟩, _, ⟨h2, rfl⟩, h3, rfl⟩, g, hg, h⟩ := h
  simp only [Except.ok.injEq, Prod.mk.injEq] at h
  obtain ⟨rfl, rfl⟩ := h
  have : 1 / (1 / ct.density initial / ratio) = ct.density initial * ratio := by field_simp
  exact ⟨h1, h2, this, hg, rfl, rfl, rfl, rfl, rfl⟩

section C58

variable {working initial : ct.Gas} {tolT tolV ratio : ℝ} {maxIter : ℤ} {fuel : ℕ} {out : CJOut ct}

/-- C58: with an iteration limit of at least 1, the call ends, for every gas (whatever Cantera answers). -/
theorem C58_terminates (hm : 1 ≤ maxIter) (hf : maxIter ≤ fuel) :
    ∃ r, cjState ct working initial tolT tolV ratio maxIter fuel = some r := by
  unfold cjState
  cases hs : cjStart ct working initial ratio with
  | error e => exact ⟨_, rfl⟩
  | ok x =>
    obtain ⟨density, s⟩ := x
    obtain ⟨-, -, -, -, -, -, -, -, hc⟩ := cjStart_ok hs
    simp only
    rw [cjLoop_eq]
    apply iterLoop_terminates cjBody_count <;> rw [hc] <;> push_cast <;> omega

/-- C58: the result does not depend on the fuel. -/
theorem C58_fuel {fuel' : ℕ} {r : Py (CJOut ct)} (hle : fuel ≤ fuel')
    (h : cjState ct working initial tolT tolV ratio maxIter fuel = some r) :
    cjState ct working initial tolT tolV ratio maxIter fuel' = some r := by
  unfold cjState at h ⊢
  cases hs : cjStart ct working initial ratio with
  | error e => rw [hs] at h; exact h
  | ok x =>
    obtain ⟨density, s⟩ := x
    rw [hs] at h
    simp only [cjLoop_eq] at h ⊢
    exact iterLoop_mono hle h

/-- C58: what comes out.  After `n <= max_iterations - 1` updates the loop stopped with the `n`-th iterate: either
because that one meets both tolerances, without warning, or with the warning because the limit was
reached and it does not meet them. -/
theorem C58_outcome (hm : 1 ≤ maxIter)
    (h : cjState ct working initial tolT tolV ratio maxIter fuel = some (.ok out)) :
    ∃ density s0 n s, cjStart ct working initial ratio = .ok (density, s0) ∧
      CJIterate ct initial density tolT tolV s0 n s ∧ (n : ℤ) ≤ maxIter - 1 ∧
      out.gas = s.gas ∧ out.velocity = s.v ∧
      (out.warned = true ↔ (n : ℤ) = maxIter - 1 ∧ (tolT * s.T < |s.dT| ∨ tolV * s.v < |s.dv|)) ∧
      (out.warned = false ↔ |s.dT| ≤ tolT * s.T ∧ |s.dv| ≤ tolV * s.v) := by
  unfold cjState at h
  cases hs : cjStart ct working initial ratio with
  | error e => rw [hs] at h; simp at h
  | ok x =>
    obtain ⟨density, s0⟩ := x
    rw [hs] at h
    simp only [cjLoop_eq] at h
    obtain ⟨-, -, -, -, -, -, -, -, hc⟩ := cjStart_ok hs
    obtain ⟨n, s, hr, hlt, hcase⟩ := iterLoop_count cjBody_count (by rw [hc]; push_cast; omega) h
    rw [hc] at hlt hcase
    refine ⟨density, s0, n, s, rfl, cjIterate_iff.mpr hr, by push_cast at hlt; omega, ?_⟩
    rcases hcase with ⟨rfl, hu, hn⟩ | ⟨rfl, hu⟩
    · refine ⟨rfl, rfl, ?_, ?_⟩
      · simp only [true_iff]
        exact ⟨by push_cast at hn; omega, hu⟩
      · simp only [Bool.true_eq_false, false_iff, not_and_or, not_le]
        exact hu
    · refine ⟨rfl, rfl, ?_, ?_⟩
      · simp only [Bool.false_eq_true, false_iff, not_and]
        exact fun _ => hu
      · simp only [true_iff]
        simp only [CJ.unconverged, not_or, not_lt, gt_iff_lt] at hu
        exact hu

/-- C58: the steps of an iterate are the differences from the one before; so stopping without a warning after at
least one update means that the last change was within tolerance. -/
theorem C58_step_is_change {density : ℝ} {prev s : CJ ct} (h : CJStep ct initial density prev s) :
    s.dT = s.T - prev.T ∧ s.dv = s.v - prev.v := by
  obtain ⟨_, _, _, _, _, _, _, _, _, _, _, _, _, _, _, _, hT, hv, _, _⟩ := cjBody_ok h
  constructor <;> linarith

/-- C58: so without a warning (and with a temperature tolerance below 1/2) at least one update was made, and it
changed temperature and velocity by no more than the tolerances. -/
theorem C58_last_change (hm : 1 ≤ maxIter) (ht : tolT < 0.5)
    (h : cjState ct working initial tolT tolV ratio maxIter fuel = some (.ok out)) (hw : out.warned = false) :
    ∃ density prev s, density = ct.density initial * ratio ∧ CJStep ct initial density prev s ∧
      out.gas = s.gas ∧ out.velocity = s.v ∧
      |s.T - prev.T| ≤ tolT * s.T ∧ |s.v - prev.v| ≤ tolV * s.v := by
  obtain ⟨density, s0, n, s, h0, hi, -, hg, hv, -, hc⟩ := C58_outcome hm h
  obtain ⟨c1, c2⟩ := hc.mp hw
  obtain ⟨-, -, hd, -, eT, -, edT, -⟩ := cjStart_ok h0
  cases hi with
  | start =>
    exfalso
    rw [eT, edT] at c1
    norm_num at c1
    linarith
  | step _ _ hb =>
    obtain ⟨e1, e2⟩ := C58_step_is_change hb
    exact ⟨density, _, s, hd, hb, hg, hv, by rw [← e1]; exact c1, by rw [← e2]; exact c2⟩

/-- C58: an exception comes from the start or from the update of an iterate; none is produced by the loop. -/
theorem C58_exceptions {e : PyErr} (h : cjState ct working initial tolT tolV ratio maxIter fuel = some (.error e)) :
    cjStart ct working initial ratio = .error e ∨
    ∃ density s0 n s, cjStart ct working initial ratio = .ok (density, s0) ∧
      CJIterate ct initial density tolT tolV s0 n s ∧ cjBody ct initial density s = .error e := by
  unfold cjState at h
  cases hs : cjStart ct working initial ratio with
  | error e' => rw [hs] at h; simp only [Option.some.injEq, Except.error.injEq] at h; exact .inl (by rw [h])
  | ok x =>
    obtain ⟨density, s0⟩ := x
    rw [hs] at h
    simp only [cjLoop_eq] at h
    obtain ⟨n, s, hr, -, hb⟩ := iterLoop_error h
    exact .inr ⟨density, s0, n, s, rfl, cjIterate_iff.mpr hr, hb⟩

/-- C58: with the default limit of 500 the call always ends, and `cjStateDefault` is its outcome. -/
theorem C58_default_limit (fuel : ℕ) (hf : 500 ≤ fuel) :
    cjState ct working initial tolT tolV ratio 500 fuel =
      some (cjStateDefault ct working initial tolT tolV ratio) := by
  obtain ⟨r, hr⟩ := C58_terminates (ct := ct) (working := working) (initial := initial) (tolT := tolT) (tolV := tolV)
    (ratio := ratio) (maxIter := 500) (fuel := 500) (by norm_num) (by norm_num)
  rw [C58_fuel hf hr, cjStateDefault, hr]
  rfl

/-! ### C59 -/

/-- Setting temperature and density, and equilibrating at constant temperature and volume, keep both. -/
structure LawfulTV (ct : Cantera) : Prop where
  setTD : ∀ g T ρ g', ct.setTD g T ρ = .ok g' → ct.T g' = T ∧ ct.density g' = ρ
  equilibrate : ∀ g g', ct.equilibrate g "TV" = .ok g' → ct.T g' = ct.T g ∧ ct.density g' = ct.density g

theorem LawfulTV.equilibrium (hl : LawfulTV ct) {g g' : ct.Gas} {ρ T : ℝ}
    (h : SD.equilibrium ct g ρ T = .ok g') : ct.T g' = T ∧ ct.density g' = ρ := by
  simp only [SD.equilibrium, bind_eq_ok] at h
  obtain ⟨g1, h1, h2⟩ := h
  obtain ⟨a, b⟩ := hl.setTD _ _ _ _ h1
  obtain ⟨c, d⟩ := hl.equilibrate _ _ h2
  exact ⟨by rw [c, a], by rw [d, b]⟩

theorem cjStep_temperature {density : ℝ} {s s' : CJ ct} (hT : 0 < s.T) (h : CJStep ct initial density s s') :
    0.8 * s.T ≤ s'.T ∧ s'.T ≤ 1.2 * s.T := by
  obtain ⟨_, _, _, _, _, d, _, _, _, _, _, _, _, _, hl, _, hT', _, _, _⟩ := cjBody_ok h
  rw [hT']
  exact temperature_step hT hl

/-- C59: the guess temperature of the `n`-th iterate is positive, between 2000·0.8^n and 2000·1.2^n. -/
theorem C59_temperature_positive {density : ℝ} {s0 s : CJ ct} {n : ℕ}
    (h0 : cjStart ct working initial ratio = .ok (density, s0))
    (h : CJIterate ct initial density tolT tolV s0 n s) :
    0 < s.T ∧ 2000 * 0.8 ^ n ≤ s.T ∧ s.T ≤ 2000 * 1.2 ^ n := by
  induction h with
  | start =>
    obtain ⟨-, -, -, -, hT, -⟩ := cjStart_ok h0
    rw [hT]; norm_num
  | step _ _ hb ih =>
    obtain ⟨a, b⟩ := cjStep_temperature ih.1 hb
    refine ⟨by linarith [ih.1], ?_, ?_⟩
    · rw [pow_succ]; linarith [ih.2.1]
    · rw [pow_succ]; linarith [ih.2.2]

/-- C59: one update changes it by at most a factor 0.8 ... 1.2. -/
theorem C59_temperature_step {density : ℝ} {s0 s s' : CJ ct} {n : ℕ}
    (h0 : cjStart ct working initial ratio = .ok (density, s0))
    (h : CJIterate ct initial density tolT tolV s0 n s) (hs : CJStep ct initial density s s') :
    0.8 * s.T ≤ s'.T ∧ s'.T ≤ 1.2 * s.T :=
  cjStep_temperature (C59_temperature_positive h0 h).1 hs

theorem cjIterate_gas (hl : LawfulTV ct) {density : ℝ} {s0 s : CJ ct} {n : ℕ}
    (h0 : cjStart ct working initial ratio = .ok (density, s0))
    (h : CJIterate ct initial density tolT tolV s0 n s) :
    ct.T s.gas = s.T ∧ ct.density s.gas = ct.density initial * ratio := by
  obtain ⟨-, -, hd, hg, hT, -⟩ := cjStart_ok h0
  cases h with
  | start => rw [hT, ← hd]; exact hl.equilibrium hg
  | step _ _ hb =>
    obtain ⟨_, _, _, _, _, _, _, _, _, _, _, _, _, _, _, _, _, _, _, hg⟩ := cjBody_ok hb
    rw [← hd]
    exact hl.equilibrium hg

/-- C59: if Cantera keeps temperature and density when asked to, the returned gas has density = initial density x
density ratio, and its temperature is the guess temperature of the iterate returned (positive). -/
theorem C59_returned_gas (hl : LawfulTV ct) (hm : 1 ≤ maxIter)
    (h : cjState ct working initial tolT tolV ratio maxIter fuel = some (.ok out)) :
    ct.density out.gas = ct.density initial * ratio ∧ 0 < ct.T out.gas ∧
    ∃ density s0 n s, cjStart ct working initial ratio = .ok (density, s0) ∧
      CJIterate ct initial density tolT tolV s0 n s ∧ out.velocity = s.v ∧ ct.T out.gas = s.T := by
  obtain ⟨density, s0, n, s, h0, hi, -, hg, hv, -⟩ := C58_outcome hm h
  obtain ⟨a, b⟩ := cjIterate_gas hl h0 hi
  rw [hg]
  exact ⟨b, by rw [a]; exact (C59_temperature_positive h0 hi).1, density, s0, n, s, h0, hi, hv, a⟩

theorem errEquilibrium_only_zeroDivision {g : ct.Gas} {v : ℝ} {e : PyErr}
    (h : errEquilibrium ct g initial v = .error e) : e = .zeroDivision := by
  unfold errEquilibrium pyDiv at h
  split at h
  · simpa using h.symm
  · simp at h

theorem errReflected_only_zeroDivision {g post : ct.Gas} {v : ℝ} {e : PyErr}
    (h : errReflected ct v g post = .error e) : e = .zeroDivision := by
  unfold errReflected pyDiv at h
  split at h
  · simpa using h.symm
  · rw [ok_bind] at h
    split at h
    · simpa using h.symm
    · simp at h

theorem newton_only_zeroDivision {a b c d x y : ℝ} {e : PyErr} (h : newton a b c d x y = .error e) :
    e = .zeroDivision := by
  by_cases hj : a * d - c * b = 0
  · simp only [newton, pyDiv, hj, if_true, err_bind, Except.error.injEq] at h
    exact h.symm
  · simp only [newton, pyDiv, hj, if_false, ok_bind] at h
    cases h

theorem limit_only_zeroDivision {a b : ℝ} {e : PyErr} (h : limit a b = .error e) : e = .zeroDivision := by
  unfold limit pyDiv at h
  split at h
  · split at h
    · simpa using h.symm
    · simp at h
  · simp at h

theorem pyDiv_only_zeroDivision {a b : ℝ} {e : PyErr} (h : pyDiv a b = .error e) : e = .zeroDivision := by
  unfold pyDiv at h
  split at h
  · simpa using h.symm
  · simp at h

theorem pyInv_only_zeroDivision {a : ℝ} {e : PyErr} (h : pyInv a = .error e) : e = .zeroDivision := by
  unfold pyInv at h
  split at h
  · simpa using h.symm
  · simp at h

theorem bind_error {α β : Type} {x : Py α} {f : α → Py β} {e : PyErr} :
    (x >>= f) = .error e ↔ x = .error e ∨ ∃ a, x = .ok a ∧ f a = .error e := by
  cases x with
  | error e' => simp
  | ok a => simp

theorem cjBody_only_zeroDivision (hc : ∀ g T ρ, 0 < T → 0 < ρ → ∃ g', equilibrium ct g ρ T = .ok g')
    {density : ℝ} (hd : 0 < density) {s : CJ ct} (hT : 0 < s.T) {e : PyErr}
    (h : cjBody ct initial density s = .error e) : e = .zeroDivision := by
  have eq : ∀ {g : ct.Gas} {T : ℝ}, 0 < T → equilibrium ct g density T ≠ .error e := fun hT' he => by
    obtain ⟨g', hg'⟩ := hc _ _ density hT' hd
    rw [hg'] at he; cases he
  simp only [cjBody, bind_error] at h
  rcases h with h | ⟨e0, -, h | ⟨gT, -, h | ⟨eT, -, h | ⟨hT', -, h | ⟨pT, -, h | ⟨gv, -, h | ⟨ev, -, h | ⟨hv, -,
    h | ⟨pv, -, h | ⟨d, -, h | ⟨dT, hdT, h | ⟨g, -, h⟩⟩⟩⟩⟩⟩⟩⟩⟩⟩⟩⟩
  · exact errEquilibrium_only_zeroDivision h
  · exact absurd h (eq (by linarith))
  · exact errEquilibrium_only_zeroDivision h
  · exact pyDiv_only_zeroDivision h
  · exact pyDiv_only_zeroDivision h
  · exact absurd h (eq hT)
  · exact errEquilibrium_only_zeroDivision h
  · exact pyDiv_only_zeroDivision h
  · exact pyDiv_only_zeroDivision h
  · exact newton_only_zeroDivision h
  · exact limit_only_zeroDivision h
  · exact absurd h (eq (by linarith [(temperature_step hT hdT).1]))
  · cases h

/-- C59: Cantera is only ever asked for states of positive temperature and density: if it can equilibrate those,
no exception of Cantera comes out of `cj_state` (positive initial density and density ratio); only
a division by zero can. -/
theorem C59_only_positive_states (hc : ∀ g T ρ, 0 < T → 0 < ρ → ∃ g', equilibrium ct g ρ T = .ok g')
    (h1 : 0 < ct.density initial) (h2 : 0 < ratio) {e : PyErr}
    (h : cjState ct working initial tolT tolV ratio maxIter fuel = some (.error e)) : e = .zeroDivision := by
  rcases C58_exceptions h with h | ⟨density, s0, n, s, h0, hi, hb⟩
  · simp only [cjStart, guessDensity, bind_error] at h
    rcases h with (h | ⟨v, hv, h | ⟨gv, hgv, h⟩⟩) | ⟨d, hd, h | ⟨g, -, h⟩⟩
    · exact pyInv_only_zeroDivision h
    · exact pyDiv_only_zeroDivision h
    · exact pyInv_only_zeroDivision h
    · exfalso
      simp only [bind_eq_ok, pyInv_eq_ok, pyDiv_eq_ok] at hd
      obtain ⟨_, ⟨-, rfl⟩, _, ⟨-, rfl⟩, -, rfl⟩ := hd
      obtain ⟨g', hg'⟩ := hc working 2000 (1 / (1 / ct.density initial / ratio)) (by norm_num) (by positivity)
      rw [hg'] at h; cases h
    · cases h
  · obtain ⟨-, -, hd, -⟩ := cjStart_ok h0
    exact cjBody_only_zeroDivision hc (by rw [hd]; positivity) (C59_temperature_positive h0 hi).1 hb

end C58

/-! ### C60 -/

/-- C60: the solver core returns the exact solution of `J d = -e`, the only one. -/
theorem C60_newton_system {hx hy px py eh ep : ℝ} (hJ : hx * py - px * hy ≠ 0) (dx dy : ℝ) :
    newton hx hy px py eh ep = .ok (dx, dy) ↔ hx * dx + hy * dy = -eh ∧ px * dx + py * dy = -ep := by
  rw [newton_eq_ok]
  simp only [Prod.mk.injEq]
  constructor
  · rintro ⟨-, rfl, rfl⟩
    constructor
    · rw [← mul_div_assoc, ← mul_div_assoc, ← add_div, div_eq_iff hJ]; ring
    · rw [← mul_div_assoc, ← mul_div_assoc, ← add_div, div_eq_iff hJ]; ring
  · rintro ⟨h1, h2⟩
    refine ⟨hJ, ?_, ?_⟩
    · rw [eq_div_iff hJ]; linear_combination py * h1 - hy * h2
    · rw [eq_div_iff hJ]; linear_combination hx * h2 - px * h1

/-- C60: a singular system is a division by zero. -/
theorem C60_singular {hx hy px py eh ep : ℝ} (hJ : hx * py - px * hy = 0) :
    newton hx hy px py eh ep = .error .zeroDivision := by
  simp [newton, pyDiv, hJ]

/-- C60: if both errors are affine in the unknowns, one step from any point with the exact slopes lands on the
exact root. -/
theorem C60_affine_exact {hx hy px py h0 p0 x y : ℝ} {d : ℝ × ℝ}
    (h : newton hx hy px py (h0 + hx * x + hy * y) (p0 + px * x + py * y) = .ok d) :
    h0 + hx * (x + d.1) + hy * (y + d.2) = 0 ∧ p0 + px * (x + d.1) + py * (y + d.2) = 0 := by
  obtain ⟨hJ, -⟩ := newton_eq_ok.mp h
  obtain ⟨h1, h2⟩ := (C60_newton_system hJ d.1 d.2).mp h
  constructor <;> linarith

/-- C60: the update of `cj_state`.  With `e` the errors at the current guess, `eT`, `ev` those with the temperature
raised by 2 % and with the velocity raised by 2 %, the velocity step and (if it is at most 20 % of the
temperature) the temperature step solve the linearised system with those difference quotients; a larger
temperature step is cut to 20 %, in the same direction. -/
theorem C60_cj_update {initial : ct.Gas} {density : ℝ} {s s' : CJ ct} (hT : 0 < s.T)
    (h : CJStep ct initial density s s') :
    ∃ gT gv e eT ev dT, errEquilibrium ct s.gas initial s.v = .ok e ∧
      equilibrium ct s.gas density (1.02 * s.T) = .ok gT ∧ errEquilibrium ct gT initial s.v = .ok eT ∧
      equilibrium ct gT density s.T = .ok gv ∧ errEquilibrium ct gv initial (1.02 * s.v) = .ok ev ∧
      (eT.1 - e.1) / (0.02 * s.T) * dT + (ev.1 - e.1) / (0.02 * s.v) * s'.dv = -e.1 ∧
      (eT.2 - e.2) / (0.02 * s.T) * dT + (ev.2 - e.2) / (0.02 * s.v) * s'.dv = -e.2 ∧
      (|dT| ≤ 0.2 * s.T → s'.dT = dT) ∧ (0.2 * s.T < |dT| → s'.dT = 0.2 * s.T * dT / |dT|) ∧
      s'.T = s.T + s'.dT ∧ s'.v = s.v + s'.dv ∧ equilibrium ct gv density s'.T = .ok s'.gas := by
  obtain ⟨gT, gv, e, eT, ev, d, h1, h2, h3, h4, h5, -, -, hn, hl, hdv, hT', hv', -, hg⟩ := cjBody_ok h
  obtain ⟨hJ, -⟩ := newton_eq_ok.mp hn
  obtain ⟨n1, n2⟩ := (C60_newton_system hJ d.1 d.2).mp hn
  obtain ⟨-, l2, l3⟩ := limit_ok (by positivity) hl
  refine ⟨gT, gv, e, eT, ev, d.1, h1, ?_, h3, h4, ?_, ?_, ?_, l2, l3, hT', hv', hg⟩
  · rw [← h2]; congr 1; ring
  · rw [← h5]; congr 1; ring
  · rw [hdv]; exact n1
  · rw [hdv]; exact n2

/-- C60: a state without errors is a fixed point of `cj_state` (and then the loop stops). -/
theorem C60_cj_fixed_point {initial : ct.Gas} {density : ℝ} {s s' : CJ ct} (hT : 0 < s.T)
    (h : CJStep ct initial density s s') (he : errEquilibrium ct s.gas initial s.v = .ok (0, 0)) :
    s'.T = s.T ∧ s'.v = s.v ∧ s'.dT = 0 ∧ s'.dv = 0 := by
  obtain ⟨gT, gv, e, eT, ev, d, h1, h2, h3, h4, h5, -, -, hn, hl, hdv, hT', hv', -, hg⟩ := cjBody_ok h
  rw [he, Except.ok.injEq] at h1
  subst h1
  obtain ⟨hJ, hd⟩ := newton_eq_ok.mp hn
  have e1 : d.1 = 0 := by rw [hd]; simp
  have e2 : d.2 = 0 := by rw [hd]; simp
  obtain ⟨-, l2, -⟩ := limit_ok (by positivity) hl
  have e3 : s'.dT = 0 := by rw [l2 (by rw [e1, abs_zero]; positivity), e1]
  rw [hT', hv', hdv, e2, e3]
  simp

/-- C60: the update of `get_eq_state`, in terms of temperature and specific volume. -/
theorem C60_reflected_update {u pv : ℝ} {post : ct.Gas} {s s' : RS ct} (hT : 0 < s.T)
    (h : rsBody ct u post pv s = .ok s') :
    ∃ gT gV e eT eV dT dV, errReflected ct u s.gas post = .ok e ∧
      equilibrium ct s.gas (1 / s.V) (1.02 * s.T) = .ok gT ∧ errReflected ct u gT post = .ok eT ∧
      equilibrium ct gT (1 / (1.02 * s.V)) s.T = .ok gV ∧ errReflected ct u gV post = .ok eV ∧
      (eT.1 - e.1) / (0.02 * s.T) * dT + (eV.1 - e.1) / (0.02 * s.V) * dV = -e.1 ∧
      (eT.2 - e.2) / (0.02 * s.T) * dT + (eV.2 - e.2) / (0.02 * s.V) * dV = -e.2 ∧
      (|dT| ≤ 0.2 * s.T → s'.dT = dT) ∧ (0.2 * s.T < |dT| → s'.dT = 0.2 * s.T * dT / |dT|) ∧
      (s.V + dV ≤ pv → |dV| ≤ 0.2 * s.V → s'.dV = dV) ∧
      s'.T = s.T + s'.dT ∧ s'.V = s.V + s'.dV ∧ equilibrium ct gV (1 / s'.V) s'.T = .ok s'.gas := by
  obtain ⟨gT, gV, e, eT, eV, d, -, -, -, h1, h2, h3, h4, h5, -, -, hn, hl, hlV, hT', hV', -, hg⟩ := rsBody_ok h
  obtain ⟨hJ, -⟩ := newton_eq_ok.mp hn
  obtain ⟨n1, n2⟩ := (C60_newton_system hJ d.1 d.2).mp hn
  obtain ⟨-, l2, l3⟩ := limit_ok (by positivity) hl
  refine ⟨gT, gV, e, eT, eV, d.1, d.2, h1, ?_, h3, ?_, h5, ?_, ?_, l2, l3, ?_, hT', hV', hg⟩
  · rw [← h2]; congr 1; ring
  · rw [← h4]; congr 2; ring
  · rw [mul_comm 0.02 s.T]; exact n1
  · rw [mul_comm 0.02 s.T]; exact n2
  · intro hle hab
    unfold volumeLimit at hlV
    rw [if_neg (not_lt.mpr hle)] at hlV
    exact (limit_ok (le_trans (abs_nonneg _) hab) hlV).2.1 hab

/-! ### C64 -/

section C64

variable {post working : ct.Gas} {u tolT tolV : ℝ} {maxIter : ℤ} {fuel : ℕ}

/-- `s` is the `n`-th iterate of `get_eq_state`, no earlier one having met the tolerances. -/
inductive RSIterate (ct : Cantera) (u : ℝ) (post : ct.Gas) (pv tolT tolV : ℝ) (s0 : RS ct) : ℕ → RS ct → Prop
  | start : RSIterate ct u post pv tolT tolV s0 0 s0
  | step {n : ℕ} {s s' : RS ct} : RSIterate ct u post pv tolT tolV s0 n s →
      (tolT * s.T < |s.dT| ∨ tolV * s.V < |s.dV|) → rsBody ct u post pv s = .ok s' →
      RSIterate ct u post pv tolT tolV s0 (n + 1) s'

theorem rsIterate_iff {pv : ℝ} {s0 s : RS ct} {n : ℕ} :
    RSIterate ct u post pv tolT tolV s0 n s ↔
      Reached (rsBody ct u post pv) (RS.unconverged tolT tolV) s0 n s := by
  constructor
  · intro h
    induction h with
    | start => exact .start
    | step _ hu hb ih => exact .step ih hu hb
  · intro h
    induction h with
    | start => exact .start
    | step _ hu hb ih => exact .step ih hu hb

theorem rsStart_ok {pv : ℝ} {s : RS ct} (h : rsStart ct post working = .ok (pv, s)) :
    ct.density post ≠ 0 ∧ ct.density working ≠ 0 ∧ pv = 1 / ct.density post ∧
      equilibrium ct working (ct.density working) (ct.T working) = .ok s.gas ∧
      s.T = ct.T working ∧ s.V = 1 / ct.density working ∧ s.dT = 1000 ∧ s.dV = 1000 ∧ s.count = 0 := by
  simp only [rsStart, bind_eq_ok, pyInv_eq_ok] at h
  obtain ⟨_, ⟨h1, rfl⟩, _, ⟨h2, rfl⟩, g, hg, h⟩ := h
  simp only [Except.ok.injEq, Prod.mk.injEq] at h
  obtain ⟨rfl, rfl⟩ := h
  exact ⟨h1, h2, rfl, hg, rfl, rfl, rfl, rfl, rfl⟩

/-- C64: if the guess state is hotter than absolute zero and at least as dense as the post-shock gas, every
iterate has positive temperature and a specific volume that is positive and not above the post-shock volume. -/
theorem C64_bracket {pv : ℝ} {s0 s : RS ct} {n : ℕ} (h0 : rsStart ct post working = .ok (pv, s0))
    (hT : 0 < ct.T working) (h2 : 0 < ct.density post) (h3 : ct.density post ≤ ct.density working)
    (h : RSIterate ct u post pv tolT tolV s0 n s) :
    0 < s.T ∧ 0 < s.V ∧ s.V ≤ 1 / ct.density post := by
  obtain ⟨-, -, hpv, -, eT, eV, -⟩ := rsStart_ok h0
  induction h with
  | start =>
    rw [eT, eV]
    exact ⟨hT, one_div_pos.mpr (by linarith), one_div_le_one_div_of_le h2 h3⟩
  | step _ _ hb ih =>
    obtain ⟨_, _, _, _, _, d, _, _, _, _, _, _, _, _, _, _, _, hlT, hlV, hT', hV', _, _⟩ := rsBody_ok hb
    obtain ⟨i1, i2, i3⟩ := ih
    rw [← hpv] at i3 ⊢
    rw [hT', hV']
    exact ⟨by linarith [(temperature_step i1 hlT).1], volume_step i2 i3 hlV⟩

/-- C64: one update changes the temperature by a factor in 0.8 ... 1.2, and the volume by at most half the distance
to the post-shock volume or 20 %. -/
theorem C64_step {pv : ℝ} {s0 s s' : RS ct} {n : ℕ} (h0 : rsStart ct post working = .ok (pv, s0))
    (hT : 0 < ct.T working) (h2 : 0 < ct.density post) (h3 : ct.density post ≤ ct.density working)
    (h : RSIterate ct u post pv tolT tolV s0 n s) (hb : rsBody ct u post pv s = .ok s') :
    0.8 * s.T ≤ s'.T ∧ s'.T ≤ 1.2 * s.T ∧
      (|s'.V - s.V| ≤ 0.5 * (1 / ct.density post - s.V) ∨ |s'.V - s.V| ≤ 0.2 * s.V) := by
  obtain ⟨-, -, hpv, -⟩ := rsStart_ok h0
  obtain ⟨i1, i2, i3⟩ := C64_bracket h0 hT h2 h3 h
  obtain ⟨_, _, _, _, _, d, _, _, _, _, _, _, _, _, _, _, _, hlT, hlV, hT', hV', _, _⟩ := rsBody_ok hb
  rw [← hpv] at i3 ⊢
  obtain ⟨a, b⟩ := temperature_step i1 hlT
  refine ⟨by rw [hT']; exact a, by rw [hT']; exact b, ?_⟩
  rw [hV', add_sub_cancel_left]
  unfold volumeLimit at hlV
  split at hlV
  · exact .inl (limit_ok (by linarith) hlV).1
  · exact .inr (limit_ok (by positivity) hlV).1

/-- C64: with an iteration limit of at least 1, the call ends. -/
theorem C64_terminates (hm : 1 ≤ maxIter) (hf : maxIter ≤ fuel) :
    ∃ r, getEqState ct u post working tolT tolV maxIter fuel = some r := by
  unfold getEqState
  cases hs : rsStart ct post working with
  | error e => exact ⟨_, rfl⟩
  | ok x =>
    obtain ⟨density, s⟩ := x
    obtain ⟨-, -, -, -, -, -, -, -, hc⟩ := rsStart_ok hs
    simp only
    rw [rsLoop_eq]
    apply iterLoop_terminates rsBody_count <;> rw [hc] <;> push_cast <;> omega

theorem C64_fuel {fuel' : ℕ} {r : Py (RSOut ct)} (hle : fuel ≤ fuel')
    (h : getEqState ct u post working tolT tolV maxIter fuel = some r) :
    getEqState ct u post working tolT tolV maxIter fuel' = some r := by
  unfold getEqState at h ⊢
  cases hs : rsStart ct post working with
  | error e => rw [hs] at h; exact h
  | ok x =>
    obtain ⟨density, s⟩ := x
    rw [hs] at h
    simp only [rsLoop_eq] at h ⊢
    exact iterLoop_mono hle h

/-- C64: what comes out: the gas of an iterate, with a warning iff the limit was reached without convergence. -/
theorem C64_outcome {out : RSOut ct} (hm : 1 ≤ maxIter)
    (h : getEqState ct u post working tolT tolV maxIter fuel = some (.ok out)) :
    ∃ pv s0 n s, rsStart ct post working = .ok (pv, s0) ∧
      RSIterate ct u post pv tolT tolV s0 n s ∧ (n : ℤ) ≤ maxIter - 1 ∧ out.gas = s.gas ∧
      (out.warned = true ↔ (n : ℤ) = maxIter - 1 ∧ (tolT * s.T < |s.dT| ∨ tolV * s.V < |s.dV|)) ∧
      (out.warned = false ↔ |s.dT| ≤ tolT * s.T ∧ |s.dV| ≤ tolV * s.V) := by
  unfold getEqState at h
  cases hs : rsStart ct post working with
  | error e => rw [hs] at h; simp at h
  | ok x =>
    obtain ⟨pv, s0⟩ := x
    rw [hs] at h
    simp only [rsLoop_eq] at h
    obtain ⟨-, -, -, -, -, -, -, -, hc⟩ := rsStart_ok hs
    obtain ⟨n, s, hr, hlt, hcase⟩ := iterLoop_count rsBody_count (by rw [hc]; push_cast; omega) h
    rw [hc] at hlt hcase
    refine ⟨pv, s0, n, s, rfl, rsIterate_iff.mpr hr, by push_cast at hlt; omega, ?_⟩
    rcases hcase with ⟨rfl, hu, hn⟩ | ⟨rfl, hu⟩
    · refine ⟨rfl, ?_, ?_⟩
      · simp only [true_iff]
        exact ⟨by push_cast at hn; omega, hu⟩
      · simp only [Bool.true_eq_false, false_iff, not_and_or, not_le]
        exact hu
    · refine ⟨rfl, ?_, ?_⟩
      · simp only [Bool.false_eq_true, false_iff, not_and]
        exact fun _ => hu
      · simp only [true_iff]
        simp only [RS.unconverged, not_or, not_lt, gt_iff_lt] at hu
        exact hu

/-- C64: with the default limit of 500 the call always ends, and `getEqStateDefault` is its outcome. -/
theorem C64_default_limit (fuel : ℕ) (hf : 500 ≤ fuel) :
    getEqState ct u post working 1e-4 1e-4 500 fuel = some (getEqStateDefault ct u post working) := by
  obtain ⟨r, hr⟩ := C64_terminates (ct := ct) (u := u) (post := post) (working := working) (tolT := 1e-4)
    (tolV := 1e-4) (maxIter := 500) (fuel := 500) (by norm_num) (by norm_num)
  rw [C64_fuel hf hr, getEqStateDefault, hr]
  rfl

/-- C64: if Cantera keeps temperature and density when asked to, the returned gas is hotter than absolute zero and at
least as dense as the post-shock gas: the reflected shock found compresses. -/
theorem C64_returned_gas (hl : LawfulTV ct) {out : RSOut ct} (hm : 1 ≤ maxIter)
    (hT : 0 < ct.T working) (h2 : 0 < ct.density post) (h3 : ct.density post ≤ ct.density working)
    (h : getEqState ct u post working tolT tolV maxIter fuel = some (.ok out)) :
    0 < ct.T out.gas ∧ ct.density post ≤ ct.density out.gas := by
  obtain ⟨pv, s0, n, s, h0, hi, -, hg, -⟩ := C64_outcome hm h
  obtain ⟨i1, i2, i3⟩ := C64_bracket h0 hT h2 h3 hi
  have : ct.T s.gas = s.T ∧ ct.density s.gas = 1 / s.V := by
    cases hi with
    | start =>
      obtain ⟨-, -, -, hgas, eT, eV, -⟩ := rsStart_ok h0
      obtain ⟨a, b⟩ := hl.equilibrium hgas
      rw [eT, eV, a, b]
      simp
    | step _ _ hb =>
      obtain ⟨_, _, _, _, _, _, _, _, _, _, _, _, _, _, _, _, _, _, _, _, _, _, hgas⟩ := rsBody_ok hb
      exact hl.equilibrium hgas
  rw [hg, this.1, this.2]
  refine ⟨i1, ?_⟩
  rw [le_div_iff₀ i2]
  rw [le_div_iff₀ h2] at i3
  linarith

/-- C64: the guess state `reflect` starts from, for a gas that obeys the ideal gas law between the post-shock state
and the guess (same composition: `P / (ρ T)` equal): five times the density of the post-shock gas, and
hotter than absolute zero, so the bracket above applies. -/
theorem C64_reflect_guess {U T P : ℝ} {w : ct.Gas} (h : reflectGuess ct post U = .ok (T, P))
    (h2 : 0 < ct.density post) (hT2 : 0 < ct.T post) (hP2 : 0 < ct.P post)
    (hset : ct.T w = T ∧ ct.P w = P)
    (hig : ct.P w * (ct.density post * ct.T post) = ct.P post * (ct.density w * ct.T w)) :
    0 < ct.T w ∧ ct.density w = 5 * ct.density post ∧ P = ct.P post + 0.8 * ct.density post * U ^ 2 := by
  simp only [reflectGuess, bind_eq_ok, pyInv_eq_ok, pyDiv_eq_ok] at h
  obtain ⟨_, ⟨-, rfl⟩, _, ⟨-, rfl⟩, _, ⟨-, rfl⟩, _, ⟨-, rfl⟩, h⟩ := h
  simp only [Except.ok.injEq, Prod.mk.injEq] at h
  obtain ⟨hT, hP⟩ := h
  have hP' : P = ct.P post + 0.8 * ct.density post * U ^ 2 := by
    rw [← hP]; field_simp; ring
  have hPpos : 0 < P := by
    rw [hP']; have := sq_nonneg U; positivity
  have hT' : T = ct.T post * P * 0.2 / ct.P post := by
    rw [← hT, hP]; field_simp
  have hTpos : 0 < T := by rw [hT']; positivity
  refine ⟨by rw [hset.1]; exact hTpos, ?_, hP'⟩
  rw [hset.1, hset.2] at hig
  have e : ct.P post * T = ct.T post * P * 0.2 := by rw [hT']; field_simp
  have : (ct.T post * P) * (ct.density w * 0.2) = (ct.T post * P) * ct.density post := by
    linear_combination -hig - ct.density w * e
  have := mul_left_cancel₀ (by positivity) this
  linarith

end C64

end Pypbomb.SD
