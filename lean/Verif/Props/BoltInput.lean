/-
C77: the bolt functions reject bad input.
-/
import Verif.Props.Bolt

namespace Pypbomb.Bolt
open Quantity

variable {reg : Registry} {size cls : String} {n : ℝ} {xP xA xb xp xL : QIn}

/-- `x` is understood as a physical quantity of some dimension. -/
def Parses (reg : Registry) (x : QIn) : Prop := ∃ d v, Denotes reg x d v

/-- `x` is a quantity of dimension `d` that is not negative. -/
def Good (reg : Registry) (x : QIn) (d : Dim) : Prop := ∃ v, Denotes reg x d v ∧ 0 ≤ v

theorem parses_ok {x : QIn} (h : Parses reg x) : ∃ q, parseQ x reg = .ok q := by
  obtain ⟨d, v, h⟩ := h
  cases x with
  | quantity q => exact ⟨_, rfl⟩
  | pair m s => obtain ⟨u, e, -⟩ := h; exact ⟨_, by simp only [parseQ, e]; rfl⟩
  | other => exact absurd h id

theorem parse_good {x : QIn} {q : Quantity} {kind : String} {d : Dim} (hk : supportedDims.lookup kind = some d)
    (hq : parseQ x reg = .ok q) : checkQ q kind true = .ok () ↔ Good reg x d := by
  rw [checkQ_ok_iff hk]
  cases x with
  | quantity p =>
    cases hq
    constructor
    · rintro ⟨h1, h2⟩; exact ⟨_, ⟨h1, rfl⟩, h2 rfl⟩
    · rintro ⟨v, ⟨h1, h2⟩, h3⟩; exact ⟨h1, fun _ => by rw [← h2] at h3; exact h3⟩
  | pair m s =>
    simp only [parseQ] at hq
    split at hq
    · cases hq
    · rename_i u hu
      cases hq
      constructor
      · rintro ⟨h1, h2⟩; exact ⟨_, ⟨u, hu, h1, rfl⟩, h2 rfl⟩
      · rintro ⟨v, ⟨u', hu', h1, h2⟩, h3⟩
        rw [hu] at hu'; cases hu'
        exact ⟨h1, fun _ => by rw [← h2] at h3; exact h3⟩
  | other => cases hq

theorem check_cases {q : Quantity} {kind : String} {d : Dim} (hk : supportedDims.lookup kind = some d) :
    checkQ q kind true = .ok () ∨ IsValueError (checkQ q kind true) := by
  rw [checkQ_eq q kind true hk]
  split
  · exact Or.inr ⟨_, rfl⟩
  · split
    · exact Or.inl rfl
    · exact Or.inr ⟨_, rfl⟩

theorem seq_valueError {β : Type} {x : Py Unit} {f : Unit → Py β} (hx : x = .ok () ∨ IsValueError x)
    (hf : x = .ok () → IsValueError (f ())) : IsValueError (x >>= f) := by
  rcases hx with h | ⟨m, h⟩
  · rw [h]; exact hf h
  · rw [h]; exact ⟨m, rfl⟩

/-- C77: `calculate_safety_factors` gives factors only for a pressure, an area, two strengths and a length
that are not negative; quantities of another dimension or negative ones raise ValueError, whatever the
thread and the number of bolts. -/
theorem C77_safety_factors_validate :
    (Returns (safetyFactors reg xP xA n size cls xb xp xL) →
      Good reg xP Dim.pressure ∧ Good reg xA Dim.area ∧ Good reg xb Dim.pressure ∧
        Good reg xp Dim.pressure ∧ Good reg xL Dim.length) ∧
    (Parses reg xP → Parses reg xA → Parses reg xb → Parses reg xp → Parses reg xL →
      ¬ (Good reg xP Dim.pressure ∧ Good reg xA Dim.area ∧ Good reg xb Dim.pressure ∧
        Good reg xp Dim.pressure ∧ Good reg xL Dim.length) →
      IsValueError (safetyFactors reg xP xA n size cls xb xp xL)) := by
  constructor
  · rintro ⟨r, h⟩
    simp only [safetyFactors, bind_eq_ok] at h
    obtain ⟨q1, p1, q2, p2, q3, p3, q4, p4, q5, p5, ⟨⟩, k1, ⟨⟩, k2, ⟨⟩, k3, ⟨⟩, k4, ⟨⟩, k5, -⟩ := h
    exact ⟨(parse_good lookup_pressure p1).mp k1, (parse_good lookup_area p2).mp k2,
      (parse_good lookup_pressure p3).mp k3, (parse_good lookup_pressure p4).mp k4,
      (parse_good lookup_length p5).mp k5⟩
  · intro h1 h2 h3 h4 h5 hbad
    obtain ⟨q1, p1⟩ := parses_ok h1
    obtain ⟨q2, p2⟩ := parses_ok h2
    obtain ⟨q3, p3⟩ := parses_ok h3
    obtain ⟨q4, p4⟩ := parses_ok h4
    obtain ⟨q5, p5⟩ := parses_ok h5
    simp only [safetyFactors, p1, p2, p3, p4, p5, ok_bind]
    refine seq_valueError (check_cases lookup_pressure) fun k1 => ?_
    refine seq_valueError (check_cases lookup_area) fun k2 => ?_
    refine seq_valueError (check_cases lookup_pressure) fun k3 => ?_
    refine seq_valueError (check_cases lookup_pressure) fun k4 => ?_
    refine seq_valueError (check_cases lookup_length) fun k5 => ?_
    exact absurd ⟨(parse_good lookup_pressure p1).mp k1, (parse_good lookup_area p2).mp k2,
      (parse_good lookup_pressure p3).mp k3, (parse_good lookup_pressure p4).mp k4,
      (parse_good lookup_length p5).mp k5⟩ hbad

/-- `x` is a pint quantity of dimension `d` that is not negative. -/
def GoodQ (x : QIn) (d : Dim) : Prop :=
  ∃ q, x = .quantity q ∧ q.unit.dim = d ∧ 0 ≤ q.mag * q.unit.scale + q.unit.offset

theorem checkArg_cases {x : QIn} {kind : String} {d : Dim} (hk : supportedDims.lookup kind = some d) :
    (GoodQ x d ∧ ∃ q, checkArg x kind = .ok q) ∨ (¬ GoodQ x d ∧ IsValueError (checkArg x kind)) := by
  cases x with
  | quantity q =>
    unfold checkArg
    simp only
    rcases check_cases (q := q) hk with h | ⟨m, h⟩
    · left
      have h' := (checkQ_ok_iff hk).mp h
      exact ⟨⟨q, rfl, h'.1, h'.2 rfl⟩, by rw [h]; exact ⟨_, rfl⟩⟩
    · right
      refine ⟨?_, by rw [h]; exact ⟨_, rfl⟩⟩
      rintro ⟨q', e, h1, h2⟩
      cases e
      have := (checkQ_ok_iff (pos := true) hk).mpr ⟨h1, fun _ => h2⟩
      rw [this] at h; cases h
  | pair m s => exact Or.inr ⟨(fun ⟨q, e, _⟩ => by cases e), _, rfl⟩
  | other => exact Or.inr ⟨(fun ⟨q, e, _⟩ => by cases e), _, rfl⟩

/-- C77: `calculate_stress_areas` accepts only pint quantities (no pairs) of the right dimension that are not
negative, and raises ValueError for anything else, whatever the thread. -/
theorem C77_stress_areas_validate :
    (Returns (stressAreas reg size cls xb xp xL) →
      GoodQ xb Dim.pressure ∧ GoodQ xp Dim.pressure ∧ GoodQ xL Dim.length) ∧
    (¬ (GoodQ xb Dim.pressure ∧ GoodQ xp Dim.pressure ∧ GoodQ xL Dim.length) →
      IsValueError (stressAreas reg size cls xb xp xL)) := by
  have hb := checkArg_cases (x := xb) lookup_pressure
  have hp := checkArg_cases (x := xp) lookup_pressure
  have hL := checkArg_cases (x := xL) lookup_length
  have key : ¬ (GoodQ xb Dim.pressure ∧ GoodQ xp Dim.pressure ∧ GoodQ xL Dim.length) →
      IsValueError (stressAreas reg size cls xb xp xL) := by
    intro hbad
    unfold stressAreas
    rcases hb with ⟨gb, qb, eb⟩ | ⟨-, m, eb⟩
    · rcases hp with ⟨gp, qp, ep⟩ | ⟨-, m, ep⟩
      · rcases hL with ⟨gL, qL, eL⟩ | ⟨-, m, eL⟩
        · exact absurd ⟨gb, gp, gL⟩ hbad
        · exact ⟨m, by simp only [eb, ep, eL, ok_bind, err_bind]⟩
      · exact ⟨m, by simp only [eb, ep, ok_bind, err_bind]⟩
    · exact ⟨m, by simp only [eb, err_bind]⟩
  refine ⟨?_, key⟩
  rintro ⟨r, h⟩
  by_contra hbad
  obtain ⟨m, e⟩ := key hbad
  rw [e] at h; cases h

/-- A negative window area with otherwise sensible arguments: every argument parses, the area is bad. -/
example : Parses reg (.quantity ⟨5, PUnit.bar, 1⟩) ∧
    Parses reg (.quantity ⟨-1, PUnit.meter.mul PUnit.meter, 1⟩) ∧
    ¬ Good reg (.quantity ⟨-1, PUnit.meter.mul PUnit.meter, 1⟩) Dim.area := by
  refine ⟨⟨_, _, rfl, rfl⟩, ⟨_, _, rfl, rfl⟩, ?_⟩
  rintro ⟨v, ⟨-, h⟩, h0⟩
  rw [← h] at h0
  norm_num [PUnit.mul, PUnit.meter, PUnit.base] at h0

end Pypbomb.Bolt
