import Verif.Lemmas.Pint
import Verif.Model.Thermochem

namespace Pypbomb.Thermochem
open Quantity

/-- `.to("K").magnitude` and `.to("Pa").magnitude` are the physical values. -/
theorem convert_kelvin {q : Quantity} (h : q.unit.dim = Dim.temperature) :
    q.convert PUnit.kelvin = .ok ⟨q.phys, PUnit.kelvin, q.reg⟩ := by
  rw [convert_any (by rw [h]; rfl)]
  simp [PUnit.kelvin, PUnit.base]

theorem convert_pascal {q : Quantity} (h : q.unit.dim = Dim.pressure) :
    q.convert PUnit.pascal = .ok ⟨q.phys, PUnit.pascal, q.reg⟩ := by
  rw [convert_any (by rw [h]; rfl)]
  simp [PUnit.pascal, PUnit.base]

variable {ct : Cantera} {reg : Registry} {xT xP : QIn} {T P : ℝ}

/-- Flame speed as a function of physical temperature and pressure. -/
noncomputable def flameAt (ct : Cantera) (reg : Registry) (T P : ℝ) (species : ct.Species)
    (mech phase : String) : Py Quantity := do
  let gas ← ct.solution mech phase
  let gas ← ct.setTPX gas T P species
  let u ← ct.flameSpeed gas
  .ok ⟨u, PUnit.meterPerSecond, reg.id⟩

/-- Sound speed as a function of physical temperature and pressure. -/
noncomputable def soundAt (ct : Cantera) (reg : Registry) (T P : ℝ) (species : ct.Species)
    (mech phase : String) : Py Quantity := do
  let gas ← ct.solution mech phase
  let gas ← ct.setTPX gas T P species
  let gas ← ct.equilibrate gas "TP"
  let gas' ← ct.setSP gas (ct.s gas) (1.0001 * ct.P gas)
  let gas' ← ct.equilibrate gas' "SP"
  let ratio ← pyDiv (1.0001 * ct.P gas - ct.P gas) (ct.density gas' - ct.density gas)
  let c ← npSqrt ratio
  .ok ⟨c, PUnit.meterPerSecond, reg.id⟩

theorem laminarFlameSpeed_eval (hT : Denotes reg xT Dim.temperature T)
    (hP : Denotes reg xP Dim.pressure P) (T0 : 0 ≤ T) (P0 : 0 ≤ P) (sp : ct.Species)
    (mech phase : String) :
    laminarFlameSpeed ct reg xT xP sp mech phase = flameAt ct reg T P sp mech phase := by
  obtain ⟨q1, p1, d1, v1, r1⟩ := parse_any hT
  obtain ⟨q2, p2, d2, v2, r2⟩ := parse_any hP
  have c1 := checkQ_ok (q := q1) (pos := true) lookup_temperature d1 (by rw [v1]; exact T0)
  have c2 := checkQ_ok (q := q2) (pos := true) lookup_pressure d2 (by rw [v2]; exact P0)
  have k1 := convert_kelvin d1
  have k2 := convert_pascal d2
  rw [v1] at k1; rw [v2] at k2
  cases h : ct.solution mech phase with
  | error e => simp only [laminarFlameSpeed, flameAt, h, err_bind]
  | ok g => simp only [laminarFlameSpeed, flameAt, h, p1, p2, c1, c2, k1, k2, ok_bind]

theorem eqSoundSpeed_eval (hT : Denotes reg xT Dim.temperature T)
    (hP : Denotes reg xP Dim.pressure P) (T0 : 0 ≤ T) (P0 : 0 ≤ P) (sp : ct.Species)
    (mech phase : String) :
    eqSoundSpeed ct reg xT xP sp mech phase = soundAt ct reg T P sp mech phase := by
  obtain ⟨q1, p1, d1, v1, r1⟩ := parse_any hT
  obtain ⟨q2, p2, d2, v2, r2⟩ := parse_any hP
  have c1 := checkQ_ok (q := q1) (pos := true) lookup_temperature d1 (by rw [v1]; exact T0)
  have c2 := checkQ_ok (q := q2) (pos := true) lookup_pressure d2 (by rw [v2]; exact P0)
  have k1 := convert_kelvin d1
  have k2 := convert_pascal d2
  rw [v1] at k1; rw [v2] at k2
  simp only [eqSoundSpeed, soundAt, p1, p2, c1, c2, k1, k2, ok_bind]

end Pypbomb.Thermochem
