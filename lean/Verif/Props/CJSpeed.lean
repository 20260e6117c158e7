/-
C61-C63: the CJ speed.
-/
import Verif.Lemmas.CJSpeed
import Verif.Props.SDLimits

namespace Pypbomb.SD

variable {ct : Cantera} {collect collect' : Collect} {P T : ℝ} {species : ct.Species} {mechanism : String}
  {returnR returnState : Bool} {out : Speed ct}

/-- `cj_state`, with the tolerances and limit of `cj_speed`, returns `o` for the density ratio `r` in the mixture
of the given initial state. -/
def CJAt (ct : Cantera) (P T : ℝ) (species : ct.Species) (mechanism : String) (r : ℝ) (o : CJOut ct) : Prop :=
  ∃ g, initialGas ct T P species mechanism = .ok g ∧ cjState ct g g 1e-4 1e-4 r 500 500 = some (.ok o)

theorem CJAt_iff {r : ℝ} {o : CJOut ct} : CJAt ct P T species mechanism r o ↔
    ∃ g, initialGas ct T P species mechanism = .ok g ∧ cjStateDefault ct g g 1e-4 1e-4 r = .ok o := by
  unfold CJAt
  simp only [C58_default_limit 500 le_rfl, Option.some.injEq]

theorem overRatio_eq_ok {n : ℕ} {r : ℝ} {x : ℕ × ℝ} : overRatio ct T P species mechanism n r = .ok x ↔
    ∃ o, CJAt ct P T species mechanism r o ∧ x = (n, o.velocity) := by
  simp only [CJAt_iff, overRatio, bind_eq_ok, Except.ok.injEq]
  constructor
  · rintro ⟨g, hg, g', hg', o, ho, hx⟩
    rw [hg, Except.ok.injEq] at hg'
    subst hg'
    exact ⟨o, ⟨g, hg, ho⟩, hx.symm⟩
  · rintro ⟨o, ⟨g, hg, ho⟩, hx⟩
    exact ⟨g, hg, g, hg, o, ho, hx.symm⟩

theorem overRatio_index (n : ℕ) (r : ℝ) (x : ℕ × ℝ) (h : overRatio ct T P species mechanism n r = .ok x) : x.1 = n := by
  obtain ⟨o, -, rfl⟩ := overRatio_eq_ok.mp h
  rfl

/-! ### C61 -/

/-- C61: however the results of the evaluations are collected (any two orders; `map` is one of them), `cj_speed` returns
the same dictionary, or raises under both. -/
theorem C61_schedule_independent (hc : Fair collect) (hc' : Fair collect') :
    SameOutcome (cjSpeed ct collect P T species mechanism returnR returnState)
      (cjSpeed ct collect' P T species mechanism returnR returnState) :=
  (refineLoop_same hc hc' overRatio_index 0 4 1.5 2 none 0).bind fun _ => .refl _

/-- C61: in particular the parallel evaluation agrees with the serial one. -/
theorem C61_parallel_is_serial (hc : Fair collect) :
    SameOutcome (cjSpeed ct collect P T species mechanism returnR returnState)
      (cjSpeed ct serial P T species mechanism returnR returnState) :=
  C61_schedule_independent hc serial_fair

/-- `map` and a pool delivering everything in reverse are both covered. -/
example : Fair serial ∧ Fair reversed ∧ reversed [.ok (0, 5), .ok (1, 7)] = .ok [(1, 7), (0, 5)] :=
  ⟨serial_fair, reversed_fair, rfl⟩

/-! ### C62, C63 -/

/-- One refinement as seen from outside: 21 equally spaced density ratios from `lo` to `hi`, the velocities `vel` that
`cj_state` returns for them, the parabola fitted through these points and its vertex. -/
structure Refinement (ct : Cantera) (P T : ℝ) (species : ct.Species) (mechanism : String) (lo hi : ℝ)
    (vel : List ℝ) (fit : Fit) (vertex : ℝ) : Prop where
  length : vel.length = 21
  velocity : ∀ (i : ℕ) v, vel[i]? = some v →
    ∃ o, CJAt ct P T species mechanism (lo + i * ((hi - lo) / 20)) o ∧ o.velocity = v
  fitted : cjCurveFit ((List.range 21).map (fun i : ℕ => lo + i * ((hi - lo) / 20)) |>.zip vel) = .ok fit
  a_ne_zero : fit.a ≠ 0
  at_vertex : vertex = -fit.b / (2 * fit.a)

theorem refine_refinement (hc : Fair collect) {lo hi : ℝ} {r : Refined}
    (h : refine collect (overRatio ct T P species mechanism) lo hi = .ok r) :
    ∃ vel, Refinement ct P T species mechanism lo hi vel r.fit r.ratio := by
  rcases refine_cases (lo := lo) (hi := hi) hc (overRatio_index (ct := ct) (T := T) (P := P) (species := species)
    (mechanism := mechanism)) with ⟨vel, hv, he⟩ | ⟨⟨e, he⟩, -⟩
  · rw [he] at h
    simp only [fitAt, bind_eq_ok, pyDiv_eq_ok] at h
    obtain ⟨fit, hfit, x, ⟨ha, rfl⟩, h⟩ := h
    simp only [Except.ok.injEq] at h
    subst h
    refine ⟨vel, hv.1, fun i v hi' => ?_, hfit, fun hz => ha (by rw [hz, mul_zero]), rfl⟩
    have hlt : i < 21 := by
      have := (List.getElem?_eq_some_iff.mp hi').1
      rw [hv.1] at this; exact this
    have hr : (linspace lo hi)[i]? = some (lo + i * ((hi - lo) / 20)) := by
      simp [linspace, List.getElem?_range hlt]
    obtain ⟨o, ho, heq⟩ := overRatio_eq_ok.mp (hv.2 i _ v hr hi')
    rw [Prod.mk.injEq] at heq
    exact ⟨o, ho, heq.2.symm⟩
  · rw [he] at h; cases h

/-- C62 is false: whenever `cj_speed` returns, it has made exactly four refinements (84 `cj_state` calculations); the
R^2 values play no role, because `delta_r_squared` keeps its initial value 0. -/
theorem C62_four_refinements_partial (hc : Fair collect)
    (h : cjSpeed ct collect P T species mechanism returnR returnState = .ok out) :
    ∃ v1 f1 x1 v2 f2 x2 v3 f3 x3 v4 f4 x4,
      Refinement ct P T species mechanism 1.5 2 v1 f1 x1 ∧
      Refinement ct P T species mechanism (0.999 * x1) (1.001 * x1) v2 f2 x2 ∧
      Refinement ct P T species mechanism (0.999 * x2) (1.001 * x2) v3 f3 x3 ∧
      Refinement ct P T species mechanism (0.999 * x3) (1.001 * x3) v4 f4 x4 ∧
      out.speed = f4.a * x4 ^ 2 + f4.b * x4 + f4.c := by
  simp only [cjSpeed, bind_eq_ok] at h
  obtain ⟨l, hl, h⟩ := h
  obtain ⟨r1, r2, r3, r4, h1, h2, h3, h4, rfl⟩ := refineLoop_four hl
  simp only [bind_eq_ok, Except.ok.injEq] at h
  obtain ⟨st, -, rfl⟩ := h
  obtain ⟨v1, R1⟩ := refine_refinement hc h1
  obtain ⟨v2, R2⟩ := refine_refinement hc h2
  obtain ⟨v3, R3⟩ := refine_refinement hc h3
  obtain ⟨v4, R4⟩ := refine_refinement hc h4
  have e : ∀ x : ℝ, x * (1 - 0.001) = 0.999 * x ∧ x * (1 + 0.001) = 1.001 * x := fun x => ⟨by ring, by ring⟩
  rw [(e _).1, (e _).2] at R2 R3 R4
  exact ⟨v1, _, _, v2, _, _, v3, _, _, v4, _, _, R1, R2, R3, R4, rfl⟩

/-- C63: the speed is the value of the last fitted parabola at its vertex: its minimum if it opens upward, its maximum
if downward.  R^2 of that fit is returned iff asked for; the state, iff asked for, is the one `cj_state` finds at
the vertex. -/
theorem C63_vertex_and_keys (hc : Fair collect)
    (h : cjSpeed ct collect P T species mechanism returnR returnState = .ok out) :
    ∃ lo hi vel fit x, Refinement ct P T species mechanism lo hi vel fit x ∧
      out.speed = fit.a * x ^ 2 + fit.b * x + fit.c ∧
      (0 < fit.a → ∀ y, out.speed ≤ fit.a * y ^ 2 + fit.b * y + fit.c) ∧
      (fit.a < 0 → ∀ y, fit.a * y ^ 2 + fit.b * y + fit.c ≤ out.speed) ∧
      out.rSquared = (if returnR = true then some fit.r2 else none) ∧
      (returnState = false → out.state = none) ∧
      (returnState = true → ∃ o, CJAt ct P T species mechanism x o ∧ out.state = some o.gas) := by
  simp only [cjSpeed, bind_eq_ok] at h
  obtain ⟨l, hl, h⟩ := h
  obtain ⟨r1, r2, r3, r4, h1, h2, h3, h4, rfl⟩ := refineLoop_four hl
  simp only [bind_eq_ok, Except.ok.injEq] at h
  obtain ⟨st, hst, rfl⟩ := h
  obtain ⟨v4, R4⟩ := refine_refinement hc h4
  have key : ∀ y, r4.fit.a * y ^ 2 + r4.fit.b * y + r4.fit.c =
      r4.fit.a * r4.ratio ^ 2 + r4.fit.b * r4.ratio + r4.fit.c + r4.fit.a * (y - r4.ratio) ^ 2 := by
    intro y
    have ha := R4.a_ne_zero
    rw [R4.at_vertex]
    field_simp
    ring
  refine ⟨_, _, v4, r4.fit, r4.ratio, R4, rfl, fun ha y => ?_, fun ha y => ?_, rfl, fun hs => ?_, fun hs => ?_⟩
  · rw [key y]
    have := mul_nonneg ha.le (sq_nonneg (y - r4.ratio))
    simp only; linarith
  · rw [key y]
    have := mul_nonpos_of_nonpos_of_nonneg ha.le (sq_nonneg (y - r4.ratio))
    simp only; linarith
  · rw [hs] at hst
    simpa [stateAt] using hst.symm
  · rw [hs] at hst
    simp only [stateAt, if_true, bind_eq_ok, Except.ok.injEq] at hst
    obtain ⟨g, hg, g', hg', o, ho, rfl⟩ := hst
    rw [hg, Except.ok.injEq] at hg'
    subst hg'
    exact ⟨o, CJAt_iff.mpr ⟨g, hg, ho⟩, rfl⟩

/-! ### Exactness on a parabola, and a gas that shows it -/

theorem fitAt_parabola {a b c lo hi : ℝ} (ha : a ≠ 0) (hlo : 0 < lo) (hlt : lo < hi) :
    fitAt lo hi ((linspace lo hi).map fun r => a * r ^ 2 + b * r + c) =
      .ok ⟨⟨a, b, c, some 1⟩, -b / (2 * a)⟩ := by
  have hz : (linspace lo hi).zip ((linspace lo hi).map fun r => a * r ^ 2 + b * r + c) =
      (linspace lo hi).map fun r => (r, a * r ^ 2 + b * r + c) := by
    simp [← List.map_prod_left_eq_zip]
  have hpos : ∀ p ∈ (linspace lo hi).map (fun r => (r, a * r ^ 2 + b * r + c)), 0 < p.1 := by
    intro p hp
    obtain ⟨r, hr, rfl⟩ := List.mem_map.mp hp
    exact linspace_pos hlo (by linarith) hr
  have h3 : ThreeX ((linspace lo hi).map fun r => (r, a * r ^ 2 + b * r + c)) := by
    obtain ⟨x, hx, y, hy, z, hz, h1, h2, h3⟩ := linspace_three hlt.ne
    exact ⟨_, List.mem_map.mpr ⟨x, hx, rfl⟩, _, List.mem_map.mpr ⟨y, hy, rfl⟩, _, List.mem_map.mpr ⟨z, hz, rfl⟩,
      h1, h2, h3⟩
  have hon : ∀ p ∈ (linspace lo hi).map (fun r => (r, a * r ^ 2 + b * r + c)),
      p.2 = a * p.1 ^ 2 + b * p.1 + c := by
    intro p hp
    obtain ⟨r, hr, rfl⟩ := List.mem_map.mp hp
    rfl
  obtain ⟨fit, hfit⟩ := C54_positive_abscissae hpos h3
  obtain ⟨e1, e2, e3, e4⟩ := C51_recovers_exact_parabola hfit hon
  have hsst : SST ((linspace lo hi).map fun r => (r, a * r ^ 2 + b * r + c)) ≠ 0 := by
    intro hs
    have hm := sst_zero_iff.mp hs
    have := C51_recovers_exact_parabola (a := 0) (b := 0) (c := mean _) hfit (fun p hp => by rw [hm p hp]; ring)
    exact ha (by rw [← e1, this.1])
  unfold fitAt
  rw [hz, hfit, ok_bind, pyDiv_ok (by rw [e1]; exact mul_ne_zero two_ne_zero ha), ok_bind, ← e1, ← e2, ← e3, ← e4 hsst]

theorem velocities_of {task : ℕ → ℝ → Py (ℕ × ℝ)} {lo hi : ℝ} {f : ℝ → ℝ}
    (h : ∀ r ∈ linspace lo hi, ∀ n, task n r = .ok (n, f r)) : Velocities task lo hi ((linspace lo hi).map f) := by
  refine ⟨by simp [linspace_length], fun i r v hr hv => ?_⟩
  rw [List.getElem?_map, hr] at hv
  simp only [Option.map_some, Option.some.injEq] at hv
  rw [← hv]
  exact h r (List.mem_of_getElem? hr) i

theorem linspace_range {lo hi x : ℝ} (hle : lo ≤ hi) (h : x ∈ linspace lo hi) : lo ≤ x ∧ x ≤ hi := by
  obtain ⟨i, hi', rfl⟩ := linspace_mem.mp h
  have h3 : (i : ℝ) ≤ 20 := by exact_mod_cast Nat.lt_succ_iff.mp hi'
  have h4 : (0 : ℝ) ≤ i := Nat.cast_nonneg i
  have : lo + i * ((hi - lo) / 20) = lo + (hi - lo) * (i / 20) := by ring
  have h5 : (i : ℝ) / 20 ≤ 1 := by linarith
  have h6 : (0 : ℝ) ≤ i / 20 := by linarith
  rw [this]
  constructor <;> nlinarith [mul_nonneg (sub_nonneg.mpr hle) h6, mul_le_mul_of_nonneg_left h5 (sub_nonneg.mpr hle)]

/-- All four refinements when the velocity is an exact parabola in the density ratio. -/
theorem parabola_loop (hc : Fair collect) {a b c : ℝ} (ha : a ≠ 0) (hx : 0 < -b / (2 * a))
    (hv : ∀ r, (1.5 ≤ r ∧ r ≤ 2 ∨ 0.999 * (-b / (2 * a)) ≤ r ∧ r ≤ 1.001 * (-b / (2 * a))) →
      ∃ o, CJAt ct P T species mechanism r o ∧ o.velocity = a * r ^ 2 + b * r + c) :
    refineLoop collect (overRatio ct T P species mechanism) 0 4 1.5 2 none 0 =
      .ok (some ⟨⟨a, b, c, some 1⟩, -b / (2 * a)⟩, 4) ∧
    refine collect (overRatio ct T P species mechanism) 1.5 2 = .ok ⟨⟨a, b, c, some 1⟩, -b / (2 * a)⟩ := by
  have hr : ∀ lo hi, 0 < lo → lo < hi → (∀ r, lo ≤ r → r ≤ hi →
      ∃ o, CJAt ct P T species mechanism r o ∧ o.velocity = a * r ^ 2 + b * r + c) →
      refine collect (overRatio ct T P species mechanism) lo hi = .ok ⟨⟨a, b, c, some 1⟩, -b / (2 * a)⟩ := by
    intro lo hi h1 h2 h3
    rw [refine_eval hc overRatio_index (velocities_of (f := fun r => a * r ^ 2 + b * r + c) fun r hr n => ?_),
      fitAt_parabola ha h1 h2]
    obtain ⟨l1, l2⟩ := linspace_range h2.le hr
    obtain ⟨o, ho, hov⟩ := h3 r l1 l2
    exact overRatio_eq_ok.mpr ⟨o, ho, by rw [hov]⟩
  have r1 := hr 1.5 2 (by norm_num) (by norm_num) fun r l1 l2 => hv r (.inl ⟨l1, l2⟩)
  have r2 := hr (-b / (2 * a) * (1 - 0.001)) (-b / (2 * a) * (1 + 0.001)) (mul_pos hx (by norm_num))
    (by linarith) fun r l1 l2 => hv r (.inr ⟨by linarith, by linarith⟩)
  refine ⟨?_, r1⟩
  simp only [refineLoop_step, r1, ok_bind, r2]
  rfl

/-- C63: if the velocity `cj_state` finds is an exact parabola in the density ratio (on the ranges searched, vertex at a
positive ratio), `cj_speed` returns its exact extremum, and R^2 = 1. -/
theorem C63_exact_for_parabola (hc : Fair collect) {a b c : ℝ} (ha : a ≠ 0) (hx : 0 < -b / (2 * a))
    (hv : ∀ r, (1.5 ≤ r ∧ r ≤ 2 ∨ 0.999 * (-b / (2 * a)) ≤ r ∧ r ≤ 1.001 * (-b / (2 * a))) →
      ∃ o, CJAt ct P T species mechanism r o ∧ o.velocity = a * r ^ 2 + b * r + c) :
    ∃ out o, cjSpeed ct collect P T species mechanism true true = .ok out ∧
      out.speed = c - b ^ 2 / (4 * a) ∧ out.rSquared = some (some 1) ∧
      CJAt ct P T species mechanism (-b / (2 * a)) o ∧ out.state = some o.gas := by
  obtain ⟨o, ho, -⟩ := hv (-b / (2 * a)) (.inr ⟨by linarith, by linarith⟩)
  obtain ⟨g, hg, hst⟩ := CJAt_iff.mp ho
  refine ⟨⟨a * (-b / (2 * a)) ^ 2 + b * (-b / (2 * a)) + c, some (some 1), some o.gas⟩, o, ?_, ?_, rfl, ho, rfl⟩
  · unfold cjSpeed
    rw [(parabola_loop hc ha hx hv).1, ok_bind]
    simp only [stateAt, if_true, hg, hst, ok_bind]
  · simp only
    field_simp
    ring

/-- Velocity as a function of the density ratio for the example gas. -/
noncomputable def exV (ρ : ℝ) : ℝ := 2000 + 1000 * (ρ - 1.8) ^ 2

/-- Guess temperature of the reflected state of that gas. -/
noncomputable def exTg : ℝ := 2100 * (16900000 / 9 + 5760000) * (1 / 9) / (16900000 / 9 * (5 / 9))

/-- A gas for which `cj_state` converges, after two updates, to the velocity `exV ratio`.  (Above density 5 it is
arranged so that the reflected shock of its CJ state is found after one update.) -/
noncomputable def exP (T ρ : ℝ) : ℝ :=
  if 5 < ρ then 16900000 / 9 + (8000 / 9) ^ 2 / (5 / 9 - 1 / ρ) + (1 / ρ - 1 / 9)
  else 100000 + (1 - 1 / ρ) * (if T < 2090 then 4000000 + 4040 * (exV ρ - 2000) else exV ρ ^ 2)

/-- Its enthalpy. -/
noncomputable def exH (T ρ : ℝ) : ℝ :=
  if 5 < ρ then 112000000 / 81 + (8000 / 9) ^ 2 / 2 * (5 / 9 + 1 / ρ) / (5 / 9 - 1 / ρ) + (T - exTg)
  else (1 - 1 / ρ ^ 2) / 2 *
    (if T < 2090 then 4000000 + 4040 * (exV ρ - 2000) - 100 + (T - 2000) else exV ρ ^ 2 + (T - 2100))

section Example

variable {mk : ℝ → ℝ → ct.Gas}

theorem ex_first (H : IsTV ct mk exP exH) {T1 ρ : ℝ} (h0 : 0 < ρ) (h1 : ρ ≠ 1) (h5 : ρ ≤ 5) :
    cjBody ct (mk T1 1) ρ ⟨mk 2000 ρ, 2000, 2000, 1000, 1000, 0⟩ =
      .ok ⟨mk 2100 ρ, 2100, exV ρ, 100, exV ρ - 2000, 1⟩ := by
  have k1 : 1 - 1 / ρ ≠ 0 := by
    intro hc; apply h1; field_simp at hc; linarith
  have k2 : (1 - 1 / ρ ^ 2) / 2 ≠ 0 := by
    intro hc
    field_simp at hc
    have : (ρ - 1) * (ρ + 1) = 0 := by linarith
    rcases mul_eq_zero.mp this with h | h
    · apply h1; linarith
    · linarith
  have cT : exH T1 1 = 0 ∧ exP T1 1 = 100000 := by
    constructor
    · norm_num [exH]
    · norm_num [exP]
  have c6 := not_lt.mpr h5
  have c1 : (2000 : ℝ) < 2090 := by norm_num
  have c2 : (2000 + 0.02 * 2000 : ℝ) < 2090 := by norm_num
  have n1 : (0.02 * 2000 : ℝ) ≠ 0 := by norm_num
  unfold cjBody
  simp only [H.equilibrium, H.err _ _ _ _ h0.ne', ok_bind, pyDiv_ok n1, cT.1, cT.2]
  simp only [exP, exH, if_neg c6, if_pos c1, if_pos c2]
  generalize exV ρ = v
  generalize 1 - 1 / ρ = cp at *
  generalize (1 - 1 / ρ ^ 2) / 2 = ch at *
  have e1 : (ch * (4000000 + 4040 * (v - 2000) - 100 + (2000 + 0.02 * 2000 - 2000)) - 0 - ch * 2000 ^ 2 -
      (ch * (4000000 + 4040 * (v - 2000) - 100 + (2000 - 2000)) - 0 - ch * 2000 ^ 2)) / (0.02 * 2000) = ch := by
    ring
  have e2 : (100000 + cp * (4000000 + 4040 * (v - 2000)) - 100000 - cp * 2000 ^ 2 -
      (100000 + cp * (4000000 + 4040 * (v - 2000)) - 100000 - cp * 2000 ^ 2)) / (0.02 * 2000) = 0 := by
    ring
  have e3 : (ch * (4000000 + 4040 * (v - 2000) - 100 + (2000 - 2000)) - 0 - ch * (2000 + 0.02 * 2000) ^ 2 -
      (ch * (4000000 + 4040 * (v - 2000) - 100 + (2000 - 2000)) - 0 - ch * 2000 ^ 2)) / (0.02 * 2000) =
      -4040 * ch := by ring
  have e4 : (100000 + cp * (4000000 + 4040 * (v - 2000)) - 100000 - cp * (2000 + 0.02 * 2000) ^ 2 -
      (100000 + cp * (4000000 + 4040 * (v - 2000)) - 100000 - cp * 2000 ^ 2)) / (0.02 * 2000) =
      -4040 * cp := by ring
  rw [e1, e2, e3, e4]
  have e5 : newton ch (-4040 * ch) 0 (-4040 * cp)
      (ch * (4000000 + 4040 * (v - 2000) - 100 + (2000 - 2000)) - 0 - ch * 2000 ^ 2)
      (100000 + cp * (4000000 + 4040 * (v - 2000)) - 100000 - cp * 2000 ^ 2) = .ok (100, v - 2000) := by
    rw [C60_newton_system]
    · constructor <;> ring
    · rw [zero_mul, sub_zero]
      exact mul_ne_zero k2 (mul_ne_zero (by norm_num) k1)
  have e6 : limit 100 (0.2 * 2000) = .ok 100 := by
    unfold limit
    rw [if_neg (by norm_num)]
  rw [e5, ok_bind, e6, ok_bind]
  congr 2 <;> norm_num

theorem ex_second (H : IsTV ct mk exP exH) {T1 ρ : ℝ} (h0 : 0 < ρ) (h1 : ρ ≠ 1) (h5 : ρ ≤ 5) :
    cjBody ct (mk T1 1) ρ ⟨mk 2100 ρ, 2100, exV ρ, 100, exV ρ - 2000, 1⟩ =
      .ok ⟨mk 2100 ρ, 2100, exV ρ, 0, 0, 2⟩ := by
  have k1 : 1 - 1 / ρ ≠ 0 := by
    intro hc; apply h1; field_simp at hc; linarith
  have k2 : (1 - 1 / ρ ^ 2) / 2 ≠ 0 := by
    intro hc
    field_simp at hc
    have : (ρ - 1) * (ρ + 1) = 0 := by linarith
    rcases mul_eq_zero.mp this with h | h
    · apply h1; linarith
    · linarith
  have cT : exH T1 1 = 0 ∧ exP T1 1 = 100000 := by
    constructor
    · norm_num [exH]
    · norm_num [exP]
  have hv : 0 < exV ρ := by unfold exV; positivity
  have c6 := not_lt.mpr h5
  have c1 : ¬ (2100 : ℝ) < 2090 := by norm_num
  have c2 : ¬ (2100 + 0.02 * 2100 : ℝ) < 2090 := by norm_num
  have n1 : (0.02 * 2100 : ℝ) ≠ 0 := by norm_num
  have n2 : 0.02 * exV ρ ≠ 0 := by positivity
  unfold cjBody
  simp only [H.equilibrium, H.err _ _ _ _ h0.ne', ok_bind, pyDiv_ok n1, pyDiv_ok n2, cT.1, cT.2]
  simp only [exP, exH, if_neg c6, if_neg c1, if_neg c2]
  generalize exV ρ = v at *
  generalize 1 - 1 / ρ = cp at *
  generalize (1 - 1 / ρ ^ 2) / 2 = ch at *
  have e1 : (ch * (v ^ 2 + (2100 + 0.02 * 2100 - 2100)) - 0 - ch * v ^ 2 -
      (ch * (v ^ 2 + (2100 - 2100)) - 0 - ch * v ^ 2)) / (0.02 * 2100) = ch := by ring
  have e2 : (100000 + cp * v ^ 2 - 100000 - cp * v ^ 2 - (100000 + cp * v ^ 2 - 100000 - cp * v ^ 2)) /
      (0.02 * 2100) = 0 := by ring
  have e4 : (100000 + cp * v ^ 2 - 100000 - cp * (v + 0.02 * v) ^ 2 -
      (100000 + cp * v ^ 2 - 100000 - cp * v ^ 2)) / (0.02 * v) = -2.02 * cp * v := by
    rw [div_eq_iff n2]; ring
  have e5 : ch * (v ^ 2 + (2100 - 2100)) - 0 - ch * v ^ 2 = 0 := by ring
  have e6 : 100000 + cp * v ^ 2 - 100000 - cp * v ^ 2 = 0 := by ring
  rw [e1, e2, e4, e5, e6]
  generalize (ch * (v ^ 2 + (2100 - 2100)) - 0 - ch * (v + 0.02 * v) ^ 2 - 0) / (0.02 * v) = hv'
  have e7 : newton ch hv' 0 (-2.02 * cp * v) 0 0 = .ok (0, 0) := by
    rw [C60_newton_system]
    · constructor <;> ring
    · rw [zero_mul, sub_zero]
      exact mul_ne_zero k2 (mul_ne_zero (mul_ne_zero (by norm_num) k1) hv.ne')
  have e8 : limit 0 (0.2 * 2100) = .ok 0 := by
    unfold limit
    rw [if_neg (by norm_num)]
  rw [e7, ok_bind, e8, ok_bind]
  simp only [add_zero]

theorem ex_cjState (H : IsTV ct mk exP exH) {T1 ρ : ℝ} (h0 : 0 < ρ) (h1 : ρ ≠ 1) (h5 : ρ ≤ 5) (working : ct.Gas) :
    cjState ct working (mk T1 1) 1e-4 1e-4 ρ 500 500 = some (.ok ⟨mk 2100 ρ, exV ρ, false⟩) := by
  unfold cjState
  rw [H.start working T1 h0.ne']
  simp only
  have u1 : (⟨mk 2000 ρ, 2000, 2000, 1000, 1000, 0⟩ : CJ ct).unconverged 1e-4 1e-4 :=
    .inl (by norm_num)
  have u2 : (⟨mk 2100 ρ, 2100, exV ρ, 100, exV ρ - 2000, 1⟩ : CJ ct).unconverged 1e-4 1e-4 :=
    .inl (by norm_num)
  have u3 : ¬ (⟨mk 2100 ρ, 2100, exV ρ, 0, 0, 2⟩ : CJ ct).unconverged 1e-4 1e-4 := by
    have hv : 0 < exV ρ := by unfold exV; positivity
    unfold CJ.unconverged
    simp only [abs_zero, not_or, not_lt, gt_iff_lt]
    constructor
    · norm_num
    · positivity
  rw [show (500 : ℕ) = 499 + 1 from rfl, cjLoop, if_pos u1, if_neg (by norm_num), ex_first H h0 h1 h5]
  simp only
  rw [show (499 : ℕ) = 498 + 1 from rfl, cjLoop, if_pos u2, if_neg (by norm_num), ex_second H h0 h1 h5]
  simp only
  rw [show (498 : ℕ) = 497 + 1 from rfl, cjLoop, if_neg u3]

theorem ex_parabola (H : IsTV ct mk exP exH) (hT : T ≤ 1000) {r : ℝ} (h : 1 < r) (h5 : r ≤ 5) :
    CJAt ct P T species mechanism r ⟨mk 2100 r, exV r, false⟩ :=
  ⟨mk T 1, H.initial hT species mechanism, ex_cjState H (by linarith) h.ne' h5 _⟩

theorem ex_hyp (H : IsTV ct mk exP exH) (hT : T ≤ 1000) (r : ℝ)
    (h : 1.5 ≤ r ∧ r ≤ 2 ∨ 0.999 * (-(-3600) / (2 * 1000)) ≤ r ∧ r ≤ 1.001 * (-(-3600) / (2 * 1000))) :
    ∃ o, CJAt ct P T species mechanism r o ∧ o.velocity = 1000 * r ^ 2 + (-3600) * r + 5240 := by
  refine ⟨_, ex_parabola H hT (by rcases h with ⟨h, -⟩ | ⟨h, -⟩ <;> norm_num at h ⊢ <;> linarith)
    (by rcases h with ⟨-, h⟩ | ⟨-, h⟩ <;> norm_num at h ⊢ <;> linarith), ?_⟩
  simp only [exV]
  ring

end Example

/-- C62 is false: on this gas the first parabola fits exactly (R^2 = 1, above 0.99999), and still three more
refinements are made. -/
theorem C62_converged_fit_violated (P T : ℝ) (hT : T ≤ 1000) (mechanism : String) :
    ∃ r1 r4, refine serial (overRatio (tvGas exP exH) T P () mechanism) 1.5 2 = .ok r1 ∧ r1.fit.r2 = some 1 ∧
      refineLoop serial (overRatio (tvGas exP exH) T P () mechanism) 0 4 1.5 2 none 0 = .ok (some r4, 4) := by
  have h := parabola_loop (ct := tvGas exP exH) (P := P) (T := T) (species := ()) (mechanism := mechanism) serial_fair
    (a := 1000) (b := -3600) (c := 5240) (by norm_num) (by norm_num) (ex_hyp (tvGas_isTV exP exH) hT)
  exact ⟨_, _, h.2, rfl, h.1⟩

/-- The gas above meets the hypotheses of C61-C63: 2000 m/s, the minimum of the parabola, at density ratio 1.8. -/
example (P T : ℝ) (hT : T ≤ 1000) (mechanism : String) : ∃ out, cjSpeed (tvGas exP exH) serial P T () mechanism true true = .ok out ∧
    out.speed = 2000 ∧ out.rSquared = some (some 1) ∧ out.state = some (tvMk exP exH 2100 1.8) := by
  obtain ⟨out, o, h1, h2, h3, h4, h5⟩ := C63_exact_for_parabola (ct := tvGas exP exH) (P := P) (T := T) (species := ())
    (mechanism := mechanism) serial_fair (a := 1000) (b := -3600) (c := 5240) (by norm_num) (by norm_num)
    (ex_hyp (tvGas_isTV exP exH) hT)
  refine ⟨out, h1, by rw [h2]; norm_num, h3, ?_⟩
  have h6 := ex_parabola (ct := tvGas exP exH) (P := P) (T := T) (species := ()) (mechanism := mechanism)
    (tvGas_isTV exP exH) hT (r := -(-3600) / (2 * 1000)) (by norm_num) (by norm_num)
  obtain ⟨g, e1, e2⟩ := h4
  obtain ⟨g', e3, e4⟩ := h6
  rw [e1, Except.ok.injEq] at e3
  subst e3
  rw [e2, Option.some.injEq, Except.ok.injEq] at e4
  rw [h5, e4]
  congr 2
  norm_num

end Pypbomb.SD
