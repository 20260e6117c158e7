/-
Properties C66-C68: `pypbomb/thermochem.py` (C69 is in `Verif.Props.Reflected`).
-/
import Verif.Lemmas.Thermochem
import Verif.Lemmas.PerfectGas
import Mathlib.Analysis.Calculus.Deriv.MeanValue

namespace Pypbomb.Thermochem
open Quantity

variable {ct : Cantera} {reg : Registry} {xT xP : QIn} {T P : ℝ}

/-! ### C66 -/

/-- C66: let `g` be the equilibrium gas at the (physical) input state, and `rho p` the density of the
gas on its isentrope at pressure `p`, differentiable with positive slope between `p0 = g.P > 0` and
`1.0001 p0`.  Then the returned sound speed is a positive `c` with `c² = dp/drho` at an intermediate
pressure of the isentrope. -/
theorem C66_sound_speed (sp : ct.Species) (mech phase : String)
    (hT : Denotes reg xT Dim.temperature T) (hP : Denotes reg xP Dim.pressure P)
    (T0 : 0 ≤ T) (P0 : 0 ≤ P) {g0 g1 g : ct.Gas} {rho rho' : ℝ → ℝ}
    (h0 : ct.solution mech phase = .ok g0) (h1 : ct.setTPX g0 T P sp = .ok g1)
    (h2 : ct.equilibrate g1 "TP" = .ok g) (hp : 0 < ct.P g)
    (hiso : ∀ p ∈ Set.Icc (ct.P g) (1.0001 * ct.P g), ∃ a b,
      ct.setSP g (ct.s g) p = .ok a ∧ ct.equilibrate a "SP" = .ok b ∧ ct.density b = rho p)
    (hbase : rho (ct.P g) = ct.density g)
    (hder : ∀ p ∈ Set.Icc (ct.P g) (1.0001 * ct.P g), HasDerivAt rho (rho' p) p)
    (hpos : ∀ p ∈ Set.Icc (ct.P g) (1.0001 * ct.P g), 0 < rho' p) :
    ∃ c, eqSoundSpeed ct reg xT xP sp mech phase = .ok ⟨c, PUnit.meterPerSecond, reg.id⟩ ∧ 0 < c ∧
      ∃ p ∈ Set.Ioo (ct.P g) (1.0001 * ct.P g), c ^ 2 = 1 / rho' p := by
  have hlt : ct.P g < 1.0001 * ct.P g := by nlinarith
  obtain ⟨p, hmem, hslope⟩ := exists_hasDerivAt_eq_slope rho rho' hlt
    (fun x hx => (hder x hx).continuousAt.continuousWithinAt)
    (fun x hx => hder x (Set.Ioo_subset_Icc_self hx))
  obtain ⟨a, b, e1, e2, e3⟩ := hiso _ ⟨hlt.le, le_refl _⟩
  have hp' := hpos p (Set.Ioo_subset_Icc_self hmem)
  have hdp : 0 < 1.0001 * ct.P g - ct.P g := by linarith
  have hdr : rho (1.0001 * ct.P g) - rho (ct.P g) = rho' p * (1.0001 * ct.P g - ct.P g) := by
    rw [hslope]; field_simp
  have hdr0 : ct.density b - ct.density g = rho' p * (1.0001 * ct.P g - ct.P g) := by
    rw [e3, ← hbase, hdr]
  have hratio : (1.0001 * ct.P g - ct.P g) / (ct.density b - ct.density g) = 1 / rho' p := by
    rw [hdr0]; field_simp
  refine ⟨Real.sqrt (1 / rho' p), ?_, Real.sqrt_pos.mpr (by positivity), p, hmem,
    Real.sq_sqrt (by positivity)⟩
  rw [eqSoundSpeed_eval hT hP T0 P0]
  simp only [soundAt, h0, h1, h2, e1, e2, ok_bind]
  rw [pyDiv_ok (by rw [hdr0]; positivity), hratio, ok_bind, npSqrt_ok (by positivity), ok_bind]

/-- A perfect gas (air: `R = 287`, `cp = 1004.5`) at 300 K and 101325 Pa meets every hypothesis of
`C66_sound_speed`; the theorem gives its sound speed as a secant of the isentrope. -/
example : ∃ c, eqSoundSpeed (perfect 287 1004.5 0) reg (.quantity ⟨300, PUnit.kelvin, 0⟩)
      (.quantity ⟨101325, PUnit.pascal, 0⟩) () "gri30.cti" "" = .ok ⟨c, PUnit.meterPerSecond, reg.id⟩ ∧ 0 < c ∧
      ∃ p ∈ Set.Ioo (101325 : ℝ) (1.0001 * 101325), c ^ 2 =
        1 / (PerfectGas.rho 287 1004.5 (1004.5 * Real.log 300 - 287 * Real.log 101325) p / p *
          (1 - 287 / 1004.5)) := by
  refine C66_sound_speed (ct := perfect 287 1004.5 0) (reg := reg) (T := 300) (P := 101325)
    (xT := .quantity ⟨300, PUnit.kelvin, 0⟩) (xP := .quantity ⟨101325, PUnit.pascal, 0⟩) () "gri30.cti" ""
    ⟨rfl, by norm_num [PUnit.kelvin, PUnit.base]⟩ ⟨rfl, by norm_num [PUnit.pascal, PUnit.base]⟩ (by norm_num) (by norm_num)
    (g := ⟨300, 101325, true⟩) rfl rfl rfl (show (0 : ℝ) < 101325 by norm_num)
    (rho := PerfectGas.rho 287 1004.5 (1004.5 * Real.log 300 - 287 * Real.log 101325))
    (fun p _ => ⟨_, _, rfl, rfl, rfl⟩) ?_ (fun p hp => ?_) (fun p hp => ?_)
  · exact PerfectGas.rho_base (by norm_num) (by norm_num)
  all_goals
    have hp0 : (0 : ℝ) < p := lt_of_lt_of_le (by norm_num : (0 : ℝ) < 101325) hp.1
  · exact PerfectGas.rho_deriv (by norm_num) (by norm_num) _ hp0
  · have := PerfectGas.rho_pos (R := 287) (cp := 1004.5) (by norm_num)
      (1004.5 * Real.log 300 - 287 * Real.log 101325) hp0
    have h2 : (0 : ℝ) < 1 - 287 / 1004.5 := by norm_num
    positivity

/-! ### C67 -/

/-- C67: both entry points return only if temperature and pressure have the right dimension and are not
below (absolute) zero. -/
theorem C67_thermochem_validates (sp : ct.Species) (mech phase : String) (xT xP : QIn)
    (h : Returns (laminarFlameSpeed ct reg xT xP sp mech phase) ∨
      Returns (eqSoundSpeed ct reg xT xP sp mech phase)) :
    ∃ T P, Denotes reg xT Dim.temperature T ∧ Denotes reg xP Dim.pressure P ∧ 0 ≤ T ∧ 0 ≤ P := by
  rcases h with ⟨a, h⟩ | ⟨a, h⟩
  · simp only [laminarFlameSpeed, bind_eq_ok] at h
    obtain ⟨g, -, q1, p1, q2, p2, ⟨⟩, k1, ⟨⟩, k2, -⟩ := h
    obtain ⟨a1, a2, -, -⟩ := parsed_checked lookup_pressure p1 k1
    obtain ⟨b1, b2, -, -⟩ := parsed_checked lookup_temperature p2 k2
    exact ⟨_, _, b1, a1, b2, a2⟩
  · simp only [eqSoundSpeed, bind_eq_ok] at h
    obtain ⟨q1, p1, q2, p2, ⟨⟩, k1, ⟨⟩, k2, -⟩ := h
    obtain ⟨a1, a2, -, -⟩ := parsed_checked lookup_pressure p1 k1
    obtain ⟨b1, b2, -, -⟩ := parsed_checked lookup_temperature p2 k2
    exact ⟨_, _, b1, a1, b2, a2⟩

/-- C67: Cantera is handed the physical temperature in K and pressure in Pa: the flame speed returned
is the one Cantera computes for that state, in m/s of the requested registry. -/
theorem C67_flame_speed_state (sp : ct.Species) (mech phase : String)
    (hT : Denotes reg xT Dim.temperature T) (hP : Denotes reg xP Dim.pressure P)
    (T0 : 0 ≤ T) (P0 : 0 ≤ P) {g0 g1 : ct.Gas} {S : ℝ}
    (h0 : ct.solution mech phase = .ok g0) (h1 : ct.setTPX g0 T P sp = .ok g1)
    (h2 : ct.flameSpeed g1 = .ok S) :
    laminarFlameSpeed ct reg xT xP sp mech phase = .ok ⟨S, PUnit.meterPerSecond, reg.id⟩ := by
  rw [laminarFlameSpeed_eval hT hP T0 P0]
  simp only [flameAt, h0, h1, h2, ok_bind]

/-- C67: re-expressing temperature and pressure in other units never changes the outcome (value or
exception), whatever Cantera does. -/
theorem C67_unit_independent {xT' xP' : QIn} (sp : ct.Species) (mech phase : String)
    (hT : Denotes reg xT Dim.temperature T) (hP : Denotes reg xP Dim.pressure P)
    (hT' : Denotes reg xT' Dim.temperature T) (hP' : Denotes reg xP' Dim.pressure P)
    (T0 : 0 ≤ T) (P0 : 0 ≤ P) :
    laminarFlameSpeed ct reg xT xP sp mech phase = laminarFlameSpeed ct reg xT' xP' sp mech phase ∧
    eqSoundSpeed ct reg xT xP sp mech phase = eqSoundSpeed ct reg xT' xP' sp mech phase := by
  rw [laminarFlameSpeed_eval hT hP T0 P0, laminarFlameSpeed_eval hT' hP' T0 P0,
    eqSoundSpeed_eval hT hP T0 P0, eqSoundSpeed_eval hT' hP' T0 P0]
  exact ⟨rfl, rfl⟩

/-- 20 degC / 1 atm and 293.15 K / 101325 Pa. -/
example : Denotes reg (.quantity ⟨20, PUnit.degC, 0⟩) Dim.temperature 293.15 ∧
    Denotes reg (.quantity ⟨293.15, PUnit.kelvin, 0⟩) Dim.temperature 293.15 ∧
    Denotes reg (.quantity ⟨1, PUnit.atm, 0⟩) Dim.pressure 101325 ∧
    Denotes reg (.quantity ⟨101325, PUnit.pascal, 0⟩) Dim.pressure 101325 := by
  refine ⟨⟨rfl, ?_⟩, ⟨rfl, ?_⟩, ⟨rfl, ?_⟩, ⟨rfl, ?_⟩⟩ <;>
    norm_num [PUnit.degC, PUnit.kelvin, PUnit.base, PUnit.atm, PUnit.pascal]

/-! ### C68 -/

/-- C68: the result lists exactly the directory entries whose name contains `.cti` or `.xml`, and the
directory exactly when asked. -/
theorem C68_find_mechanisms (listing : List String) (path : String) (ret : Bool) (item : String) :
    (item ∈ (findMechanisms listing path ret).1 ↔ item ∈ listing ∧
      ((∃ a b : List Char, item.toList = a ++ ".cti".toList ++ b) ∨
        ∃ a b : List Char, item.toList = a ++ ".xml".toList ++ b)) ∧
    (findMechanisms listing path ret).2 = if ret = true then some path else none := by
  constructor
  · have e : (findMechanisms listing path ret).1 =
        listing.filter (fun item => pyIn ".cti" item || pyIn ".xml" item) := by
      unfold findMechanisms; split <;> rfl
    rw [e, List.mem_filter, Bool.or_eq_true, pyIn_iff, pyIn_iff]
  · unfold findMechanisms
    split <;> rfl

example : "gri30.cti" ∈ (findMechanisms ["gri30.cti", "README.txt"] "/data" false).1 := by decide

end Pypbomb.Thermochem
