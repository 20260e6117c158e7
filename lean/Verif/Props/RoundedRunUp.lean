/-
C119, C120: rounding in the run-up distance and in the equilibrium sound speed.
-/
import Verif.Lemmas.NearMore
import Verif.Props.RunUp
import Verif.Props.RoundedFlange
import Verif.Props.RoundedBolt

namespace Pypbomb

/-! ### Exact arithmetic -/

namespace Quantity

theorem logR_exact (q : Quantity) : q.logR FP.exact = q.log := by
  simp only [logR, log, toNumberR_exact, toNumber, convert]
  change _ = if q.unit.dim = PUnit.dimensionless.dim then _ else _
  by_cases h : q.unit.dim = PUnit.dimensionless.dim
  · simp only [if_pos h, ok_bind]
    simp [PUnit.dimensionless, PUnit.base, FP.exact]
  · simp only [if_neg h, err_bind]

theorem powFloatR_exact (q : Quantity) (p : ℚ) {e : ℝ} (h : e = p) : q.powFloatR FP.exact p e = q.pow p := by
  subst h; rfl

end Quantity

namespace Thermochem
open Quantity

variable (ct : Cantera) (reg : Registry) (xT xP : QIn) (species : ct.Species) (mech phase : String)

/-- With exact arithmetic the rounded flame speed and sound speed are the flame speed and sound speed. -/
theorem laminarFlameSpeedR_exact : laminarFlameSpeedR FP.exact ct reg xT xP species mech phase =
    laminarFlameSpeed ct reg xT xP species mech phase := by
  simp only [laminarFlameSpeedR, laminarFlameSpeed, Flange.checkBaseR_exact, baseR_exact]
  cases ct.solution mech phase with
  | error => rfl
  | ok g =>
  cases parseQ xP reg with
  | error => rfl
  | ok qP =>
  cases parseQ xT reg with
  | error => rfl
  | ok qT =>
  simp only [ok_bind]
  cases h1 : checkQ qP "pressure" true with
  | error => rfl
  | ok =>
  simp only [ok_bind]
  cases h2 : checkQ qT "temperature" true with
  | error => rfl
  | ok =>
  simp only [ok_bind, convert_kelvin ((checkQ_ok_iff lookup_temperature).mp h2).1,
    convert_pascal ((checkQ_ok_iff lookup_pressure).mp h1).1]

theorem C120_exact : eqSoundSpeedR FP.exact ct reg xT xP species mech phase =
    eqSoundSpeed ct reg xT xP species mech phase := by
  simp only [eqSoundSpeedR, eqSoundSpeed, Flange.checkBaseR_exact, baseR_exact]
  cases parseQ xP reg with
  | error => rfl
  | ok qP =>
  cases parseQ xT reg with
  | error => rfl
  | ok qT =>
  simp only [ok_bind]
  cases h1 : checkQ qP "pressure" true with
  | error => rfl
  | ok =>
  simp only [ok_bind]
  cases h2 : checkQ qT "temperature" true with
  | error => rfl
  | ok =>
  simp only [ok_bind, convert_kelvin ((checkQ_ok_iff lookup_temperature).mp h2).1,
    convert_pascal ((checkQ_ok_iff lookup_pressure).mp h1).1]
  rfl

end Thermochem

namespace DDT
open Quantity Thermochem

theorem eq41R_exact (r : ℕ) (rho mu : ℝ) (laminar sound : Quantity) (sigma : ℝ) (tube : Quantity) (br : ℝ) :
    eq41R FP.exact r rho mu laminar sound sigma tube br = eq41 r rho mu laminar sound sigma tube br := by
  have e : ∀ x, FP.exact.rnd x = x := fun _ => rfl
  have e1 : (1 / 3 : ℝ) = ((1 / 3 : ℚ) : ℝ) := by norm_num
  have e2 : (1 / (2 * (-0.18) + 7 / 3) : ℝ) = ((1 / (2 * (-0.18) + 7 / 3) : ℚ) : ℝ) := by norm_num
  simp only [eq41R, eq41, e, divR_exact, toBaseR_exact, scaleR_exact, mulR_exact, powFloatR_exact _ _ e1,
    powFloatR_exact _ _ e2, divNumR_exact, logR_exact, convertR_exact]

theorem eq44R_exact (laminar sound : Quantity) (sigma : ℝ) (tube : Quantity) (br : ℝ) :
    eq44R FP.exact laminar sound sigma tube br = eq44 laminar sound sigma tube br := by
  have e : ∀ x, FP.exact.rnd x = x := fun _ => rfl
  simp only [eq44R, eq44, e, divR_exact, scaleR_exact, mulR_exact, rdivR_exact, convertR_exact]

theorem runUpChoiceR_exact (reg : Registry) (rhoMu : Py (ℝ × ℝ)) (laminar sound : Quantity)
    (sigma : ℝ) (tube : Quantity) (br : ℝ) :
    runUpChoiceR FP.exact reg rhoMu laminar sound sigma tube br = runUpChoice reg rhoMu laminar sound sigma tube br := by
  have e : ∀ x, FP.exact.rnd x = x := fun _ => rfl
  have i : ∀ y1 y2 : ℝ, npInterpR FP.exact br [(0.1, y1), (0.3, y2)] = npInterp br [(0.1, y1), (0.3, y2)] :=
    fun y1 y2 => Tube.npInterpR_exact br ⟨by norm_num, trivial⟩
  simp only [runUpChoiceR, runUpChoice, e, eq41R_exact, eq44R_exact, i]

/-- With exact arithmetic the rounded `calculate_run_up` is `calculate_run_up`. -/
theorem C119_exact (ct : Cantera) (reg : Registry) (br : ℝ) (xD xT xP : QIn) (species : ct.Species)
    (mech phase : String) :
    runUpR FP.exact ct reg br xD xT xP species mech phase = runUp ct reg (.num br) xD xT xP species mech phase := by
  have e : ∀ x, FP.exact.rnd x = x := fun _ => rfl
  simp only [runUpR, runUp, Flange.checkBaseR_exact, baseR_exact, laminarFlameSpeedR_exact, C120_exact,
    runUpChoiceR_exact, e]
  split
  · rfl
  cases parseQ xD reg with
  | error => rfl
  | ok qD =>
  cases parseQ xT reg with
  | error => rfl
  | ok qT =>
  cases parseQ xP reg with
  | error => rfl
  | ok qP =>
  simp only [ok_bind]
  cases h0 : checkQ qD "length" true with
  | error => rfl
  | ok =>
  simp only [ok_bind]
  cases h2 : checkQ qT "temperature" true with
  | error => rfl
  | ok =>
  simp only [ok_bind]
  cases h1 : checkQ qP "pressure" true with
  | error => rfl
  | ok =>
  simp only [ok_bind, convert_kelvin ((checkQ_ok_iff lookup_temperature).mp h2).1,
    convert_pascal ((checkQ_ok_iff lookup_pressure).mp h1).1]

end DDT

/-! ### More operations -/

namespace Quantity

variable {fp : FP} {u : ℝ} {κ n m r : ℕ} {a b c : Quantity} {d : Dim} {x : ℝ}

theorem mulR_unit (h : a.mulR fp b = .ok c) : c.unit = a.unit.mul b.unit := by
  simp only [mulR, bind_eq_ok] at h
  obtain ⟨_, -, _, -, _, -, h⟩ := h
  cases h; rfl

theorem divR_unit (h : a.divR fp b = .ok c) : c.unit = a.unit.div b.unit := by
  simp only [divR, bind_eq_ok] at h
  obtain ⟨_, -, _, -, _, -, h⟩ := h
  split at h
  · cases h
  · cases h; rfl

theorem powFloatR_spec (H : fp.Accurate u κ) {p : ℚ} {e : ℝ} {B k : ℕ} (e0 : 0 ≤ e) (e1 : e ≤ 1) (p0 : 0 < p)
    (hx : 0 < x) (hB : |Real.log (x / a.unit.scale)| ≤ B) (he : |e - p| ≤ k * u) (ha : NearVal u n a d x r) :
    ∃ c, a.powFloatR fp p e = .ok c ∧ NearVal u (n + B * k + 1) c (d.pow p) (x ^ (p : ℝ)) r ∧
      c.unit = a.unit.pow p := by
  have o1 : noOffset a = .ok () := if_pos ha.off
  have hs0 := a.unit.pos
  have hm := near_mag H.nonneg H.lt_one hs0 ha.val
  have q0 : 0 < x / a.unit.scale := div_pos hx hs0
  have m0 : 0 ≤ a.mag := Near.nonneg H.nonneg H.lt_one q0.le hm
  refine ⟨⟨fp.rnd (a.mag ^ e), a.unit.pow p, a.reg⟩, ?_, ⟨?_, rfl, ?_, ha.reg⟩, rfl⟩
  · simp only [powFloatR, o1, ok_bind]
    rw [if_neg (by rintro ⟨h, -⟩; linarith), if_neg (by rintro ⟨-, h⟩; linarith)]
  · change a.unit.dim.pow p = _
    rw [ha.dim]
  · change Near u _ (x ^ (p : ℝ)) (fp.rnd (a.mag ^ e) * (a.unit.scale ^ (p : ℝ)))
    have h1 := near_exponent H.lt_one q0 hB he
    have h2 := Near.rpow H.nonneg H.lt_one e0 e1 q0.le hm
    have h3 := H.round (DDT.Near.trans H.nonneg H.lt_one h1 h2)
    have h4 := Near.mul H.nonneg H.lt_one h3 (Near.refl u (a.unit.scale ^ (p : ℝ)))
    rw [← Real.mul_rpow q0.le hs0.le, div_mul_cancel₀ _ hs0.ne'] at h4
    exact Near.mono H.nonneg H.lt_one (by omega) h4

theorem divNumR_near (H : fp.Accurate u κ) {k k' : ℝ} {l : ℕ} (hk : k ≠ 0) (hk' : Near u l k k')
    (ha : NearVal u n a d x r) :
    ∃ c, a.divNumR fp k' = .ok c ∧ NearVal u (n + l + 1) c d (x / k) r ∧ c.unit = a.unit := by
  have o1 : noOffset a = .ok () := if_pos ha.off
  have hs := a.unit.pos
  have k0 : k' ≠ 0 := by
    obtain ⟨θ, a1, -, e⟩ := hk'
    rw [e]; exact mul_ne_zero hk (Near.theta_pos H.nonneg H.lt_one a1).ne'
  refine ⟨⟨fp.rnd (a.mag / k'), a.unit, a.reg⟩, ?_, ⟨ha.dim, ha.off, ?_, ha.reg⟩, rfl⟩
  · simp only [divNumR, o1, ok_bind, if_neg k0]
  · have h1 := near_mag H.nonneg H.lt_one hs ha.val
    have h2 := H.round (Near.div H.nonneg H.lt_one h1 hk')
    have h3 := Near.mul H.nonneg H.lt_one h2 (Near.refl u a.unit.scale)
    have e : x / a.unit.scale / k * a.unit.scale = x / k := by field_simp
    rw [e] at h3
    exact h3

end Quantity

namespace DDT
open Quantity Thermochem

variable {fp : FP} {u : ℝ} {κ : ℕ}

theorem third_err (H : fp.Accurate u κ) (hu : u ≤ 1 / 100) :
    |fp.rnd (1 / 3) - ((1 / 3 : ℚ) : ℝ)| ≤ (1 : ℕ) * u ∧ 0 ≤ fp.rnd (1 / 3) ∧ fp.rnd (1 / 3) ≤ 1 := by
  have h := H.rnd (1 / 3)
  have h0 := H.nonneg
  rw [abs_of_pos (show (0 : ℝ) < 1 / 3 by norm_num)] at h
  have h' := abs_le.mp h
  refine ⟨?_, by linarith [h'.1], by linarith [h'.2]⟩
  push_cast
  linarith

/-- The exponent of Gamma. -/
theorem exponent_err (H : fp.Accurate u κ) (hu : u ≤ 1 / 100) :
    |fp.rnd (1 / fp.rnd (fp.rnd (2 * fp.rnd (-0.18)) + fp.rnd (7 / 3))) - ((1 / (2 * (-0.18) + 7 / 3) : ℚ) : ℝ)| ≤
        (2 : ℕ) * u ∧
      0 ≤ fp.rnd (1 / fp.rnd (fp.rnd (2 * fp.rnd (-0.18)) + fp.rnd (7 / 3))) ∧
      fp.rnd (1 / fp.rnd (fp.rnd (2 * fp.rnd (-0.18)) + fp.rnd (7 / 3))) ≤ 1 := by
  have h0 := H.nonneg
  have k1 := H.rnd (-0.18)
  generalize fp.rnd (-0.18) = m at *
  have k2 := H.rnd (2 * m)
  generalize fp.rnd (2 * m) = m2 at *
  have k3 := H.rnd (7 / 3)
  generalize fp.rnd (7 / 3) = s at *
  have k4 := H.rnd (m2 + s)
  generalize fp.rnd (m2 + s) = t at *
  have k5 := H.rnd (1 / t)
  generalize fp.rnd (1 / t) = e at *
  have u2 : u * u ≤ u / 100 := by nlinarith
  rw [show |(-0.18 : ℝ)| = 0.18 by norm_num, abs_le] at k1
  have m0 : m < 0 := by norm_num at k1 ⊢; linarith
  rw [abs_of_neg (show 2 * m < 0 by linarith), abs_le] at k2
  rw [abs_of_pos (show (0 : ℝ) < 7 / 3 by norm_num), abs_le] at k3
  have um : u * -m ≤ 0.19 * u := by nlinarith
  have m2l : -0.36 - 0.75 * u ≤ m2 := by norm_num at *; nlinarith
  have m2u : m2 ≤ -0.36 + 0.75 * u := by norm_num at *; nlinarith
  have sum0 : 0 < m2 + s := by norm_num at *; nlinarith
  rw [abs_of_pos sum0, abs_le] at k4
  have us : u * (m2 + s) ≤ 2.1 * u := by
    refine (mul_comm _ _).trans_le (mul_le_mul_of_nonneg_right ?_ h0); norm_num at *; nlinarith
  have q : (7 / 3 - 0.36 : ℝ) = 148 / 75 := by norm_num
  have tl : 148 / 75 - 5.3 * u ≤ t := by norm_num at *; linarith
  have tu : t ≤ 148 / 75 + 5.3 * u := by norm_num at *; linarith
  have t0 : 1.9 ≤ t := by norm_num at *; linarith
  have it : |1 / t - 75 / 148| ≤ 1.45 * u := by
    have : 1 / t - 75 / 148 = (148 / 75 - t) / (148 / 75 * t) := by field_simp
    rw [this, abs_div, abs_of_pos (show 0 < 148 / 75 * t by linarith), div_le_iff₀ (by linarith)]
    have a1 : |148 / 75 - t| ≤ 5.3 * u := by rw [abs_le]; constructor <;> linarith
    nlinarith
  have it1 : |1 / t| ≤ 0.53 := by
    rw [abs_of_pos (show 0 < 1 / t by positivity), div_le_iff₀ (by linarith)]; norm_num at *; linarith
  have k5' : |e - 1 / t| ≤ 0.53 * u := k5.trans (by nlinarith)
  have tot : |e - 75 / 148| ≤ 2 * u := by
    have := abs_add_le (e - 1 / t) (1 / t - 75 / 148)
    rw [sub_add_sub_cancel] at this
    linarith
  have tot' := abs_le.mp tot
  refine ⟨?_, by linarith, by linarith⟩
  have : ((1 / (2 * (-0.18) + 7 / 3) : ℚ) : ℝ) = 75 / 148 := by norm_num
  rw [this]; push_cast; exact tot

/-! ### The two correlations -/

section
variable {r m M : ℕ} {S c D sigma sigma' rho mu br : ℝ} {tube : Quantity}

theorem speedR (S : ℝ) (r : ℕ) (u : ℝ) : NearVal u 0 ⟨S, PUnit.meterPerSecond, r⟩ Dim.velocity S r :=
  ⟨rfl, rfl, by simp only [PUnit.meterPerSecond, PUnit.base, mul_one]; exact Near.refl u S, rfl⟩

theorem rhs_near (H : fp.Accurate u κ) (h0 : 0 < br) :
    Near u 5 (2 * (1 - br) / (1 + 1.5 * br))
      (fp.rnd (fp.rnd (2 * fp.rnd (1 - br)) / fp.rnd (1 + fp.rnd (1.5 * br)))) ∧ fp.rnd (1 + fp.rnd (1.5 * br)) ≠ 0 := by
  have a0 := H.nonneg; have a1 := H.lt_one
  have n1 := H.round (Near.mul a0 a1 (Near.refl u 2) (H.round (Near.refl u (1 - br))))
  have n2 := H.round (Near.add a0 a1 zero_le_one (show (0 : ℝ) ≤ 1.5 * br by positivity) (Near.refl u 1)
    (H.round (Near.refl u (1.5 * br))))
  refine ⟨Near.mono a0 a1 (by norm_num) (H.round (Near.div a0 a1 n1 n2)), ?_⟩
  obtain ⟨θ, p, -, e⟩ := n2
  rw [e]
  exact mul_ne_zero (by positivity) (Near.theta_pos a0 a1 p).ne'

theorem eq44R_near (H : fp.Accurate u κ) (ht : NearVal u 0 tube Dim.length D r) (hs : Near u 2 sigma sigma')
    (S0 : 0 < S) (c0 : 0 < c) (D0 : 0 < D) (s1 : 1 < sigma) (m1 : 1 ≤ m) (hm : sigma ≤ m * (sigma - 1))
    (hu : 8 * m * u ≤ 1) (h0 : 0 < br) :
    ∃ q, eq44R fp ⟨S, PUnit.meterPerSecond, r⟩ ⟨c, PUnit.meterPerSecond, r⟩ sigma' tube br = .ok q ∧
      q.unit = tube.unit ∧ NearVal u (8 * m + κ + 13) q Dim.length (x44 S sigma c D br) r := by
  have a0 := H.nonneg; have a1 := H.lt_one
  have hs1 : 0 < sigma - 1 := by linarith
  have nσ := H.round (near_sub_one (m := m) a0 a1 s1 hm (by push_cast; linarith) m1 hs)
  obtain ⟨q1, e1, v1, -⟩ := scaleR_spec H (Near.refl u (2 * 10)) (speedR S r u)
  obtain ⟨q2, e2, v2, -⟩ := scaleR_spec H nσ v1
  obtain ⟨q3, e3, v3⟩ := mulR_spec H (speedR c r u) ht
  obtain ⟨q4, e4, v4⟩ := divR_spec H v2 v3 (by positivity)
  obtain ⟨n5, d5⟩ := rhs_near H h0
  have e5 := pyDiv_ok (x := fp.rnd (2 * fp.rnd (1 - br))) d5
  obtain ⟨q6, e6, v6⟩ := rdivR_spec H n5 v4 (by positivity)
  obtain ⟨q7, e7, v7, u7⟩ := convertR_spec H (NearVal.cast v6 (e := Dim.length) (by dims) rfl rfl) ht.dim ht.off
  refine ⟨q7, ?_, u7, NearVal.cast v7 rfl rfl (by omega)⟩
  simp only [eq44R, e1, e2, e3, e4, e5, e6, e7, ok_bind]

/-- The roughness factor. -/
theorem dh_near (H : fp.Accurate u κ) (Mo : fp.Monotone) (r1 : fp.rnd 1 = 1) (M1 : 1 ≤ M) (h0 : 0 < br) (h1 : br < 1)
    (hM : 1 ≤ M * br) (hu : 100 * M * u ≤ 1) :
    Near u (14 * M + 1) (dh br) (fp.rnd (2 / fp.rnd (1 - fp.rnd (Real.sqrt (fp.rnd (1 - br)))))) ∧
      fp.rnd (1 - fp.rnd (Real.sqrt (fp.rnd (1 - br)))) ≠ 0 := by
  have a0 := H.nonneg; have a1 := H.lt_one
  have Mr : (1 : ℝ) ≤ M := by exact_mod_cast M1
  have hu' : u ≤ 1 / 100 := by nlinarith
  obtain ⟨-, -, hf⟩ := factor_near H Mo r1 hu' h0 h1
  have f0 := one_sub_sqrt_pos h0
  have fl : br / 2 ≤ 1 - Real.sqrt (1 - br) := by
    have : Real.sqrt (1 - br) ≤ 1 - br / 2 := Real.sqrt_le_iff.mpr ⟨by linarith, by nlinarith⟩
    linarith
  have hk : |fp.rnd (1 - fp.rnd (Real.sqrt (fp.rnd (1 - br)))) - (1 - Real.sqrt (1 - br))| ≤
      ((7 * M : ℕ) : ℝ) * u * (1 - Real.sqrt (1 - br)) := by
    refine hf.trans ?_
    push_cast
    have : (1 : ℝ) ≤ 2 * (M * (1 - Real.sqrt (1 - br))) := by nlinarith
    have : u * 1 ≤ u * (2 * (M * (1 - Real.sqrt (1 - br)))) := mul_le_mul_of_nonneg_left this a0
    norm_num
    linarith
  have n1 := near_of_abs a0 a1 f0 (by push_cast; linarith) hk
  have n2 := H.round (Near.div a0 a1 (Near.refl u 2) n1)
  refine ⟨Near.mono a0 a1 (by omega) n2, ?_⟩
  obtain ⟨θ, p, -, e⟩ := n1
  rw [e]
  exact mul_ne_zero f0.ne' (Near.theta_pos a0 a1 p).ne'

/-- Magnitudes an experimenter meets: the unit of the tube diameter is between a micrometre and a megametre, the flame
thickness and the speed ratio of eq. 4.1 are within a factor of `1e13` of 1. -/
structure Tame (w : PUnit) (S sigma c nu D : ℝ) : Prop where
  unit : |Real.log w.scale| ≤ 14
  thickness : |Real.log (nu / S / D)| ≤ 30
  speeds : |Real.log (c / (2.1 * (sigma - 1) ^ 2 * S))| ≤ 30

theorem eq41R_near (H : fp.Accurate u κ) (Mo : fp.Monotone) (r1 : fp.rnd 1 = 1) (ht : NearVal u 0 tube Dim.length D r)
    (hs : Near u 2 sigma sigma')
    (S0 : 0 < S) (c0 : 0 < c) (D0 : 0 < D) (s1 : 1 < sigma) (r0 : 0 < rho) (m0 : 0 < mu) (m1 : 1 ≤ m)
    (hm : sigma ≤ m * (sigma - 1))
    (M1 : 1 ≤ M) (hM : 1 ≤ M * br) (ho : Ordinary S sigma c (mu / rho) D) (hT : Tame tube.unit S sigma c (mu / rho) D)
    (hu : (704 * m + 616 * M + 88 * κ + 6932) * u ≤ 1) (h0 : 0 < br) (h3 : br ≤ 0.3) :
    ∃ q, eq41R fp r rho mu ⟨S, PUnit.meterPerSecond, r⟩ ⟨c, PUnit.meterPerSecond, r⟩ sigma' tube br = .ok q ∧
      q.unit = tube.unit ∧
      NearVal u (368 * m + 308 * M + 46 * κ + 3721) q Dim.length (x41 S sigma c (mu / rho) D br) r := by
  have a0 := H.nonneg; have a1 := H.lt_one
  have hs1 : 0 < sigma - 1 := by linarith
  have hs2 : 0 < (sigma - 1) ^ 2 := by positivity
  have mu0 : 0 ≤ m * u := mul_nonneg (Nat.cast_nonneg m) a0
  have Mu0 : 0 ≤ M * u := mul_nonneg (Nat.cast_nonneg M) a0
  have ku0 : 0 ≤ κ * u := mul_nonneg (Nat.cast_nonneg κ) a0
  have u1 : u ≤ 1 / 100 := by nlinarith
  have nσ := H.round (near_sub_one (m := m) a0 a1 s1 hm (by push_cast; linarith) m1 hs)
  have nσ2 := H.round (Near.mul a0 a1 nσ nσ)
  rw [← sq, ← sq] at nσ2
  have nη := H.round (Near.mul a0 a1 (H.round (Near.refl u 2.1)) nσ2)
  have hrho : NearVal u 0 ⟨rho, PUnit.kgPerM3, r⟩ Dim.density rho r :=
    ⟨rfl, rfl, by simp only [PUnit.kgPerM3, PUnit.base, mul_one]; exact Near.refl u _, rfl⟩
  have hmu : NearVal u 0 ⟨mu, PUnit.pascalSecond, r⟩ Dim.viscosity mu r :=
    ⟨rfl, rfl, by simp only [PUnit.pascalSecond, PUnit.base, mul_one]; exact Near.refl u _, rfl⟩
  obtain ⟨q1, e1, v1⟩ := divR_spec H hmu hrho r0.ne'
  obtain ⟨q2, e2, v2⟩ := divR_spec H v1 (speedR S r u) S0.ne'
  obtain ⟨v2b, u2b⟩ := toBaseR_spec H v2
  obtain ⟨q3, e3, v3, w3⟩ := scaleR_spec H nη (speedR S r u)
  obtain ⟨q4, e4, v4⟩ := divR_spec H (speedR c r u) v3 (by positivity)
  obtain ⟨q5, e5, v5⟩ := divR_spec H v2b ht D0.ne'
  have w4 := divR_unit e4
  have w5 := divR_unit e5
  have hw := tube.unit.pos
  have sc5 : q5.unit.scale = 1 / tube.unit.scale := by rw [w5, u2b]; rfl
  have sc4 : q4.unit.scale = 1 := by
    rw [w4, w3]; simp [PUnit.div, PUnit.meterPerSecond, PUnit.base]
  have x5 : 0 < mu / rho / S / D := by positivity
  have x4 : 0 < c / (2.1 * (sigma - 1) ^ 2 * S) := by positivity
  have y5 : 0 < mu / rho / S / D / q5.unit.scale := div_pos x5 q5.unit.pos
  have l5 : Real.log (mu / rho / S / D / q5.unit.scale) = Real.log (mu / rho / S / D) + Real.log tube.unit.scale := by
    rw [sc5, div_div_eq_mul_div, div_one, Real.log_mul x5.ne' hw.ne']
  have b5 : |Real.log (mu / rho / S / D / q5.unit.scale)| ≤ (44 : ℕ) := by
    rw [l5]
    have h := abs_add_le (Real.log (mu / rho / S / D)) (Real.log tube.unit.scale)
    have := hT.thickness
    have := hT.unit
    push_cast
    linarith
  obtain ⟨t1, t2, t3⟩ := third_err H u1
  obtain ⟨q6, e6, v6, w6⟩ := powFloatR_spec H t2 t3 (by norm_num) x5 b5 t1 v5
  obtain ⟨q7, e7, v7⟩ := mulR_spec H v4 v6
  have w7 := mulR_unit e7
  have sc7 : q7.unit.scale = (1 / tube.unit.scale) ^ (((1 / 3 : ℚ)) : ℝ) := by
    rw [w7, w6]
    change q4.unit.scale * (q5.unit.scale ^ (((1 / 3 : ℚ)) : ℝ)) = _
    rw [sc4, sc5, one_mul]
  have x7 : 0 < c / (2.1 * (sigma - 1) ^ 2 * S) * (mu / rho / S / D) ^ (((1 / 3 : ℚ)) : ℝ) := by positivity
  have b7 : |Real.log (c / (2.1 * (sigma - 1) ^ 2 * S) * (mu / rho / S / D) ^ (((1 / 3 : ℚ)) : ℝ) / q7.unit.scale)| ≤
      (45 : ℕ) := by
    rw [sc7, mul_div_assoc, ← Real.div_rpow x5.le (by positivity), ← sc5, Real.log_mul x4.ne' (Real.rpow_pos_of_pos y5 _).ne',
      Real.log_rpow y5]
    have h := abs_add_le (Real.log (c / (2.1 * (sigma - 1) ^ 2 * S)))
      (((1 / 3 : ℚ) : ℝ) * Real.log (mu / rho / S / D / q5.unit.scale))
    have := hT.speeds
    rw [abs_mul, show |((1 / 3 : ℚ) : ℝ)| = 1 / 3 by norm_num] at h
    push_cast at b5 ⊢
    push_cast at h
    linarith
  obtain ⟨p1, p2, p3⟩ := exponent_err H u1
  obtain ⟨q8, e8, v8, -⟩ := powFloatR_spec H p2 p3 (by norm_num) x7 b7 p1 v7
  obtain ⟨nd, d9⟩ := dh_near H Mo r1 M1 h0 (by norm_num at h3; linarith) hM (by linarith)
  have e9 := pyDiv_ok (x := 2) d9
  have v8' : NearVal u (16 * m + κ + 149) q8 Dim.one (gam S sigma c (mu / rho) D) r :=
    NearVal.cast v8 (by dims) rfl (by omega)
  have g0 := gam_pos S0 c0 (mu / rho) (by positivity) D0 s1.ne'
  obtain ⟨q10, e10, v10, -⟩ := divNumR_near H (k := 0.2) (by norm_num) (H.round (Near.refl u 0.2)) v8'
  obtain ⟨q11, e11, v11, -⟩ := scaleR_spec H nd v8'
  obtain ⟨z, e12, v12⟩ := toNumberR_spec H v11
  have z0 : 0 < dh br * gam S sigma c (mu / rho) D := mul_pos (dh_pos h0) g0
  have zpos : ¬ z ≤ 0 := by
    obtain ⟨θ, p, -, e⟩ := v12
    rw [e, not_le]
    exact mul_pos z0 (Near.theta_pos a0 a1 p)
  have e12' : q11.logR fp = .ok (fp.rnd (Real.log z)) := by
    simp only [logR, e12, ok_bind, if_neg zpos]
  have nb := near_bracket H v12 z0 (bracket_ge h0 h3 (gam_ge S0 s1.ne' ho)) (by push_cast; linarith)
  obtain ⟨q13, e13, v13, -⟩ := scaleR_spec H nb v10
  obtain ⟨q14, e14, v14⟩ := mulR_spec H v13 ht
  obtain ⟨q15, e15, v15, u15⟩ := convertR_spec H (NearVal.cast v14 (e := Dim.length) (by dims) rfl rfl) ht.dim ht.off
  refine ⟨q15, ?_, u15, NearVal.cast v15 rfl ?_ (by omega)⟩
  · simp only [eq41R, e1, e2, e3, e4, e5, e6, e7, e8, e9, e10, e11, e12', e13, e14, e15, ok_bind]
  · rw [x41_def]

/-! ### The blend -/

theorem weight_err {x0 x1 : ℝ} (a0 : 0 ≤ u) (hu : u ≤ 1 / 100) (h0 : |x0 - 0.1| ≤ u * 0.1) (h1 : |x1 - 0.3| ≤ u * 0.3)
    (b0 : 0.1 < br) (b1 : br < 0.3) : |(br - x0) / (x1 - x0) - (br - 0.1) / 0.2| ≤ 3 * u := by
  have k0 := abs_le.mp h0
  have k1 := abs_le.mp h1
  norm_num at k0 k1 b0 b1 ⊢
  have hh : 19 / 100 ≤ x1 - x0 := by linarith
  have e : (br - x0) / (x1 - x0) - (br - 1 / 10) / (1 / 5) =
      ((br - x0) * (1 / 5) - (br - 1 / 10) * (x1 - x0)) / ((x1 - x0) * (1 / 5)) := by
    have : x1 - x0 ≠ 0 := by linarith
    field_simp
  rw [e, abs_div, abs_of_pos (show 0 < (x1 - x0) * (1 / 5) by linarith), div_le_iff₀ (by linarith)]
  have e2 : (br - x0) * (1 / 5) - (br - 1 / 10) * (x1 - x0) =
      -(1 / 5) * (x0 - 1 / 10) - (br - 1 / 10) * ((x1 - 3 / 10) - (x0 - 1 / 10)) := by ring
  have d : |(x1 - 3 / 10) - (x0 - 1 / 10)| ≤ 2 / 5 * u := by rw [abs_le]; constructor <;> linarith
  have d2 : |(br - 1 / 10) * ((x1 - 3 / 10) - (x0 - 1 / 10))| ≤ 1 / 5 * (2 / 5 * u) := by
    rw [abs_mul]
    exact mul_le_mul (by rw [abs_le]; constructor <;> linarith) d (abs_nonneg _) (by norm_num)
  have d2' := abs_le.mp d2
  rw [e2, abs_le]
  constructor <;> nlinarith

/-- The interpolation between the two correlations: right up to 15 roundings of the larger parts. -/
theorem interp_err (H : fp.Accurate u κ) (hu : u ≤ 1 / 100) {x0 x1 y1 y2 : ℝ} (h0 : |x0 - 0.1| ≤ u * 0.1)
    (h1 : |x1 - 0.3| ≤ u * 0.3) (b0 : 0.1 < br) (b1 : br < 0.3) (c0 : x0 ≤ br) (c1 : br ≤ x1) (p1 : 0 ≤ y1)
    (p2 : 0 ≤ y2) :
    |fp.rnd (fp.rnd (fp.rnd (fp.rnd (y2 - y1) / fp.rnd (x1 - x0)) * fp.rnd (br - x0)) + y1) -
      (y1 + (br - 0.1) / 0.2 * (y2 - y1))| ≤ 15 * u * (y1 + y2) := by
  have a0 := H.nonneg; have a1 := H.lt_one
  have hw := weight_err a0 hu h0 h1 b0 b1
  have n1 := H.round (Near.div a0 a1 (H.round (Near.refl u (y2 - y1))) (H.round (Near.refl u (x1 - x0))))
  have n2 := H.round (Near.mul a0 a1 n1 (H.round (Near.refl u (br - x0))))
  generalize fp.rnd (fp.rnd (fp.rnd (y2 - y1) / fp.rnd (x1 - x0)) * fp.rnd (br - x0)) = pr at *
  have n3 := Near.abs (n := 5) a0 a1 (by push_cast; linarith) n2
  have hD : |y2 - y1| ≤ y1 + y2 := by rw [abs_le]; constructor <;> linarith
  have hx : 0 < x1 - x0 := by
    have k0 := abs_le.mp h0
    have k1 := abs_le.mp h1
    norm_num at k0 k1; linarith
  have hd : |(br - x0) / (x1 - x0)| ≤ 1 := by
    rw [abs_of_nonneg (div_nonneg (by linarith) hx.le), div_le_one hx]; linarith
  rw [show (y2 - y1) / (x1 - x0) * (br - x0) = (y2 - y1) * ((br - x0) / (x1 - x0)) by ring] at n3
  generalize (br - x0) / (x1 - x0) = d at *
  have hw1 : |(br - 0.1) / 0.2| ≤ 1 := by
    rw [abs_of_nonneg (div_nonneg (by linarith) (by norm_num)), div_le_one (by norm_num)]; norm_num at *; linarith
  have w0 : 0 ≤ (br - 0.1) / 0.2 := div_nonneg (by linarith) (by norm_num)
  generalize (br - 0.1) / 0.2 = w at *
  rw [abs_mul] at n3
  generalize hΔ : y2 - y1 = Δ at *
  generalize hY : y1 + y2 = Y at *
  have Y0 : 0 ≤ Y := by linarith
  have uY : 0 ≤ u * Y := mul_nonneg a0 Y0
  have uY1 : u * Y ≤ 1 / 100 * Y := mul_le_mul_of_nonneg_right hu Y0
  have q1 : |pr - Δ * d| ≤ 10 * (u * Y) := by
    refine n3.trans ?_
    have : |Δ| * |d| ≤ Y * 1 := mul_le_mul hD hd (abs_nonneg _) Y0
    push_cast
    nlinarith
  have q2 : |Δ * d - w * Δ| ≤ 3 * (u * Y) := by
    rw [show Δ * d - w * Δ = Δ * (d - w) by ring, abs_mul]
    have : |Δ| * |d - w| ≤ Y * (3 * u) := mul_le_mul hD hw (abs_nonneg _) Y0
    linarith
  have q3 : |w * Δ| ≤ Y := by
    rw [abs_mul]
    have : |w| * |Δ| ≤ 1 * Y := mul_le_mul hw1 hD (abs_nonneg _) (by norm_num)
    linarith
  have q4 : |y1 + w * Δ| ≤ Y := by
    have w1 := abs_le.mp hw1
    have : y1 + w * Δ = y1 * (1 - w) + w * y2 := by rw [← hΔ]; ring
    rw [abs_le, this]
    constructor <;> nlinarith [mul_nonneg w0 p2, mul_nonneg p1 (sub_nonneg.mpr w1.2)]
  have z' : |pr + y1| ≤ 2 * Y := by
    rw [abs_le] at q1 q2 q4 ⊢
    constructor <;> linarith [q1.1, q1.2, q2.1, q2.2, q4.1, q4.2]
  have r := H.rnd_le z'
  rw [abs_le] at r q1 q2 ⊢
  constructor <;> linarith [q1.1, q1.2, q2.1, q2.2, r.1, r.2]

/-- The distance in metres that a quantity of length denotes. -/
noncomputable def metres (q : Quantity) : ℝ := q.mag * q.unit.scale

theorem blend_transfer {X1 X4 y1 y4 z s w K4 K1 : ℝ} (s0 : 0 < s) (a0 : 0 ≤ u) (w0 : 0 ≤ w) (w1 : w ≤ 1)
    (X10 : 0 ≤ X1) (X40 : 0 ≤ X4) (k4 : 0 ≤ K4) (k1 : K4 ≤ K1) (hK : K1 * u ≤ 1)
    (h1 : |y1 * s - X1| ≤ K1 * u * X1) (h4 : |y4 * s - X4| ≤ K4 * u * X4)
    (hz : |z - (y1 + w * (y4 - y1))| ≤ 15 * u * (y1 + y4)) :
    |z * s - ((1 - w) * X1 + w * X4)| ≤ (K1 + 30) * u * (X1 + X4) := by
  have k10 : 0 ≤ K1 := k4.trans k1
  have hz' : |z * s - ((1 - w) * (y1 * s) + w * (y4 * s))| ≤ 15 * u * (y1 * s + y4 * s) := by
    have e : z * s - ((1 - w) * (y1 * s) + w * (y4 * s)) = (z - (y1 + w * (y4 - y1))) * s := by ring
    rw [e, abs_mul, abs_of_pos s0]
    calc _ ≤ 15 * u * (y1 + y4) * s := mul_le_mul_of_nonneg_right hz s0.le
      _ = _ := by ring
  generalize y1 * s = a at *
  generalize y4 * s = b at *
  have hK4 : K4 * u ≤ K1 * u := mul_le_mul_of_nonneg_right k1 a0
  have j1 : K1 * u * X1 ≤ 1 * X1 := mul_le_mul_of_nonneg_right hK X10
  have j4 : K4 * u * X4 ≤ K1 * u * X4 := mul_le_mul_of_nonneg_right hK4 X40
  have j4' : K1 * u * X4 ≤ 1 * X4 := mul_le_mul_of_nonneg_right hK X40
  have i1 := abs_le.mp h1
  have i4 := abs_le.mp h4
  have la : a ≤ 2 * X1 := by linarith
  have lb : b ≤ 2 * X4 := by linarith
  have t : 15 * u * (a + b) ≤ 15 * u * (2 * X1 + 2 * X4) := mul_le_mul_of_nonneg_left (by linarith) (by linarith)
  have m1 : |(1 - w) * (a - X1)| ≤ K1 * u * X1 := by
    rw [abs_mul, abs_of_nonneg (sub_nonneg.mpr w1)]
    calc (1 - w) * |a - X1| ≤ 1 * |a - X1| := mul_le_mul_of_nonneg_right (by linarith) (abs_nonneg _)
      _ ≤ _ := by linarith
  have m4 : |w * (b - X4)| ≤ K1 * u * X4 := by
    rw [abs_mul, abs_of_nonneg w0]
    calc w * |b - X4| ≤ 1 * |b - X4| := mul_le_mul_of_nonneg_right w1 (abs_nonneg _)
      _ ≤ _ := by linarith
  have i := abs_le.mp hz'
  have i1 := abs_le.mp m1
  have i4 := abs_le.mp m4
  rw [abs_le]
  constructor <;> linarith

/-- The relative error of a run-up distance in roundings: by how much `sigma` is above 1 (`m`) and the blockage ratio
above 0 (`M`) matter. -/
def smoothCount (m M κ : ℕ) : ℕ := 736 * m + 616 * M + 92 * κ + 7442
/-- The same for the rough-tube correlation. -/
def roughCount (m κ : ℕ) : ℕ := 16 * m + 2 * κ + 26

theorem runUpChoiceR_near {reg : Registry} (H : fp.Accurate u κ) (Mo : fp.Monotone) (r1 : fp.rnd 1 = 1)
    (rb : fp.rnd br = br) (ht : NearVal u 0 tube Dim.length D reg.id)
    (hs : Near u 2 sigma sigma')
    (S0 : 0 < S) (c0 : 0 < c) (D0 : 0 < D) (s1 : 1 < sigma) (r0 : 0 < rho) (m0 : 0 < mu) (m1 : 1 ≤ m)
    (hm : sigma ≤ m * (sigma - 1)) (M1 : 1 ≤ M) (hM : 1 ≤ M * br)
    (ho : br < 0.3 → Ordinary S sigma c (mu / rho) D ∧ Tame tube.unit S sigma c (mu / rho) D)
    (hu : smoothCount m M κ * u ≤ 1) (h0 : 0 < br) (h1 : br ≤ 0.75) :
    ∃ q, runUpChoiceR fp reg (.ok (rho, mu)) ⟨S, PUnit.meterPerSecond, reg.id⟩ ⟨c, PUnit.meterPerSecond, reg.id⟩
        sigma' tube br = .ok q ∧ q.unit = tube.unit ∧
      (0.3 ≤ br → |metres q - x44 S sigma c D br| ≤ roughCount m κ * u * x44 S sigma c D br) ∧
      (br ≤ 0.1 → |metres q - x41 S sigma c (mu / rho) D br| ≤
        smoothCount m M κ * u * x41 S sigma c (mu / rho) D br) ∧
      (0.1 < br → br < 0.3 →
        |metres q - ((0.3 - br) / 0.2 * x41 S sigma c (mu / rho) D br + (br - 0.1) / 0.2 * x44 S sigma c D br)| ≤
          (smoothCount m M κ + 30) * u * (x41 S sigma c (mu / rho) D br + x44 S sigma c D br)) := by
  have a0 := H.nonneg; have a1 := H.lt_one
  have mu0 : 0 ≤ m * u := mul_nonneg (Nat.cast_nonneg m) a0
  have Mu0 : 0 ≤ M * u := mul_nonneg (Nat.cast_nonneg M) a0
  have ku0 : 0 ≤ κ * u := mul_nonneg (Nat.cast_nonneg κ) a0
  have hu' := hu
  simp only [smoothCount] at hu'
  push_cast at hu'
  have u1 : u ≤ 1 / 100 := by nlinarith
  have X40 : 0 < x44 S sigma c D br := x44_pos S0 c0 D0 s1 h0 (by norm_num at h1; linarith)
  obtain ⟨q4, e4, u4, v4⟩ := eq44R_near H ht hs S0 c0 D0 s1 m1 hm (by linarith) h0
  have b4 : |metres q4 - x44 S sigma c D br| ≤ roughCount m κ * u * x44 S sigma c D br := by
    have := Near.abs a0 a1 (by push_cast; linarith) v4.val
    rw [abs_of_pos X40] at this
    refine this.trans_eq ?_
    simp only [roughCount]; push_cast; ring
  have k3 := H.rnd 0.3
  have k1 := H.rnd 0.1
  rw [abs_of_pos (show (0 : ℝ) < 0.3 by norm_num)] at k3
  rw [abs_of_pos (show (0 : ℝ) < 0.1 by norm_num)] at k1
  have k3' := abs_le.mp k3
  have k1' := abs_le.mp k1
  by_cases hb3 : 0.3 ≤ br
  · have : fp.rnd 0.3 ≤ br := by rw [← rb]; exact Mo.mono _ _ hb3
    refine ⟨q4, ?_, u4, fun _ => b4, fun h => ?_, fun _ h => ?_⟩
    · rw [runUpChoiceR, if_pos ⟨this, h1⟩, e4]
    · norm_num at h hb3; linarith
    · linarith
  have hb3' := not_le.mp hb3
  obtain ⟨o1, o2⟩ := ho hb3'
  obtain ⟨q1, e1, w1, v1⟩ := eq41R_near (m := m) (M := M) H Mo r1 ht hs S0 c0 D0 s1 r0 m0 m1 hm M1 hM o1 o2
    (by linarith) h0 hb3'.le
  have X10 : 0 < x41 S sigma c (mu / rho) D br := x41_pos S0 c0 (by positivity) D0 s1.ne' o1 h0 hb3'.le
  have b1 : |metres q1 - x41 S sigma c (mu / rho) D br| ≤ smoothCount m M κ * u * x41 S sigma c (mu / rho) D br := by
    have := Near.abs a0 a1 (by push_cast; linarith) v1.val
    rw [abs_of_pos X10] at this
    refine this.trans_eq ?_
    simp only [smoothCount]; push_cast; ring
  have hKK : ((roughCount m κ : ℕ) : ℝ) ≤ (smoothCount m M κ : ℕ) := by
    unfold roughCount smoothCount; exact_mod_cast by omega
  by_cases hb1 : br ≤ 0.1
  · have h2 : br ≤ fp.rnd 0.1 := by rw [← rb]; exact Mo.mono _ _ hb1
    have h3 : ¬ (fp.rnd 0.3 ≤ br ∧ br ≤ 0.75) := by
      rintro ⟨h, -⟩; norm_num at *; linarith
    refine ⟨q1, ?_, w1, fun h => absurd h hb3, fun _ => b1, fun h => by linarith⟩
    simp only [runUpChoiceR]
    rw [if_neg h3, if_pos h2, ok_bind, e1]
  have hb1' := not_le.mp hb1
  have Y1 : 0 ≤ q1.mag := nonneg_of_mul_nonneg_left (Near.nonneg a0 a1 X10.le v1.val) q1.unit.pos
  have Y4 : 0 ≤ q4.mag := nonneg_of_mul_nonneg_left (Near.nonneg a0 a1 X40.le v4.val) q4.unit.pos
  have ww : (0.3 - br) / 0.2 = 1 - (br - 0.1) / 0.2 := by norm_num; ring
  have wt0 : 0 ≤ (br - 0.1) / 0.2 := div_nonneg (by linarith) (by norm_num)
  have wt1 : (br - 0.1) / 0.2 ≤ 1 := by rw [div_le_one (by norm_num)]; norm_num at *; linarith
  have rc0 : (0 : ℝ) ≤ (roughCount m κ : ℕ) := Nat.cast_nonneg _
  rw [ww]
  simp only [metres] at b1 b4 ⊢
  rw [w1] at b1; rw [u4] at b4
  have tr : ∀ z : ℝ, |z - (q1.mag + (br - 0.1) / 0.2 * (q4.mag - q1.mag))| ≤ 15 * u * (q1.mag + q4.mag) →
      |z * tube.unit.scale - ((1 - (br - 0.1) / 0.2) * x41 S sigma c (mu / rho) D br +
        (br - 0.1) / 0.2 * x44 S sigma c D br)| ≤
        (smoothCount m M κ + 30) * u * (x41 S sigma c (mu / rho) D br + x44 S sigma c D br) := fun z hz =>
    blend_transfer tube.unit.pos a0 wt0 wt1 X10.le X40.le rc0 hKK hu b1 b4 hz
  have uY : 0 ≤ u * (q1.mag + q4.mag) := mul_nonneg a0 (by linarith)
  by_cases h3 : fp.rnd 0.3 ≤ br
  · refine ⟨q4, by rw [runUpChoiceR, if_pos ⟨h3, h1⟩, e4], u4, fun h => absurd h hb3, fun h => absurd h hb1, fun _ _ => ?_⟩
    rw [u4]
    refine tr _ ?_
    rw [show q4.mag - (q1.mag + (br - 0.1) / 0.2 * (q4.mag - q1.mag)) = (1 - (br - 0.1) / 0.2) * (q4.mag - q1.mag) by ring,
      abs_mul, abs_of_nonneg (by linarith)]
    have : 1 - (br - 0.1) / 0.2 ≤ 2 * u := by norm_num at *; linarith
    calc _ ≤ 2 * u * (q1.mag + q4.mag) :=
          mul_le_mul this (by rw [abs_le]; constructor <;> linarith) (abs_nonneg _) (by linarith)
      _ ≤ _ := by linarith
  by_cases h2 : br ≤ fp.rnd 0.1
  · refine ⟨q1, ?_, w1, fun h => absurd h hb3, fun h => absurd h hb1, fun _ _ => ?_⟩
    · simp only [runUpChoiceR]
      rw [if_neg (fun h => h3 h.1), if_pos h2, ok_bind, e1]
    rw [w1]
    refine tr _ ?_
    rw [show q1.mag - (q1.mag + (br - 0.1) / 0.2 * (q4.mag - q1.mag)) = (br - 0.1) / 0.2 * (q1.mag - q4.mag) by ring,
      abs_mul, abs_of_nonneg wt0]
    have : (br - 0.1) / 0.2 ≤ 2 * u := by norm_num at *; linarith
    calc _ ≤ 2 * u * (q1.mag + q4.mag) :=
          mul_le_mul this (by rw [abs_le]; constructor <;> linarith) (abs_nonneg _) (by linarith)
      _ ≤ _ := by linarith
  refine ⟨⟨npInterpR fp br [(fp.rnd 0.1, q1.mag), (fp.rnd 0.3, q4.mag)], tube.unit, reg.id⟩, ?_, rfl,
    fun h => absurd h hb3, fun h => absurd h hb1, fun _ _ => ?_⟩
  · simp only [runUpChoiceR]
    rw [if_neg (fun h => h3 h.1), if_neg h2, ok_bind, e1, ok_bind, e4, ok_bind]
  refine tr _ ?_
  have h2' := not_le.mp h2
  have h3' := not_le.mp h3
  simp only [npInterpR]
  rw [if_neg (not_lt.mpr h2'.le), if_neg h2'.ne', if_pos h3']
  exact interp_err H u1 k1 k3 hb1' hb3' h2'.le h3'.le Y1 Y4

/-! ### C119: the run-up distance in floating point -/

theorem parseQ_self (t : ℝ) (w : PUnit) (reg : Registry) :
    parseQ (.quantity ⟨t, w, reg.id⟩) reg = .ok ⟨t, w, reg.id⟩ := rfl

theorem baseR_kelvin (t : ℝ) (r : ℕ) : (⟨t, PUnit.kelvin, r⟩ : Quantity).baseR fp = t := if_pos rfl

theorem baseR_pascal (t : ℝ) (r : ℕ) : (⟨t, PUnit.pascal, r⟩ : Quantity).baseR fp = t := if_pos rfl

/-- As `GasAnswers`, with the sound speed computed in floating point. -/
structure GasAnswersR (fp : FP) (ct : Cantera) (reg : Registry) (species : ct.Species) (mech phase : String)
    (T P S sigma c rho mu : ℝ) : Prop where
  answers : ∃ g u b u' : ct.Gas, ct.solution mech phase = .ok g ∧ ct.setTPX g T P species = .ok u ∧
    ct.flameSpeed u = .ok S ∧ ct.equilibrate u "HP" = .ok b ∧ ct.density b ≠ 0 ∧
    sigma = ct.density u / ct.density b ∧
    eqSoundSpeedR fp ct reg (.quantity ⟨ct.T b, PUnit.kelvin, reg.id⟩)
      (.quantity ⟨ct.P b, PUnit.pascal, reg.id⟩) species mech phase =
        .ok ⟨c, PUnit.meterPerSecond, reg.id⟩ ∧
    ct.setTPX b T P species = .ok u' ∧ ct.density u' = rho ∧ ct.viscosity u' = .ok mu

variable {reg : Registry} {ct : Cantera} {species : ct.Species} {mech phase : String} {xD xT xP : QIn} {T P : ℝ}
  {w : PUnit}

/-- C119: `calculate_run_up` in floating point, given what Cantera answers at the temperature and pressure (`K` and
`Pa`): the published correlations, each to a number of roundings that depends only on how far the density ratio is
above 1 and the blockage ratio above 0, and in between the blend of the two. -/
theorem C119_accuracy (H : fp.Accurate u κ) (Mo : fp.Monotone) (r1 : fp.rnd 1 = 1) (rb : fp.rnd br = br)
    (hD : DenotesM reg xD Dim.length D) (hw : UnitOf reg xD w)
    (hg : GasAnswersR fp ct reg species mech phase T P S sigma c rho mu)
    (T0 : 0 ≤ T) (P0 : 0 ≤ P) (S0 : 0 < S) (c0 : 0 < c) (D0 : 0 < D) (s1 : 1 < sigma) (r0 : 0 < rho) (m0 : 0 < mu)
    (m1 : 1 ≤ m) (hm : sigma ≤ m * (sigma - 1)) (M1 : 1 ≤ M) (hM : 1 ≤ M * br)
    (ho : br < 0.3 → Ordinary S sigma c (mu / rho) D ∧ Tame w S sigma c (mu / rho) D)
    (hu : smoothCount m M κ * u ≤ 1) (h0 : 0 < br) (h1 : br ≤ 0.75) :
    ∃ q X1 X4, runUpR fp ct reg br xD (.quantity ⟨T, PUnit.kelvin, reg.id⟩) (.quantity ⟨P, PUnit.pascal, reg.id⟩)
        species mech phase = .ok q ∧ q.unit = w ∧
      Published41 S sigma c (mu / rho) D br X1 ∧ Published44 S sigma c D br X4 ∧
      (0.3 ≤ br → |q.phys - X4| ≤ roughCount m κ * u * X4) ∧
      (br ≤ 0.1 → |q.phys - X1| ≤ smoothCount m M κ * u * X1) ∧
      (0.1 < br → br < 0.3 →
        |q.phys - ((0.3 - br) / 0.2 * X1 + (br - 0.1) / 0.2 * X4)| ≤ (smoothCount m M κ + 30) * u * (X1 + X4)) := by
  obtain ⟨g, gu, gb, gu', a1, a2, a3, a4, a5, a6, a7, a8, a9, a10⟩ := hg.answers
  obtain ⟨qD, p1, v1, w1⟩ := parse_unit hD hw
  have b0 := H.nonneg
  have ph : qD.phys = D := by rw [phys, v1.off, add_zero]; exact v1.val
  have nD := Flange.pressure_near H v1.off ph
  have k1 : Flange.checkBaseR fp qD "length" = .ok () :=
    checkQ_ok lookup_length v1.dim (by
      have := Near.nonneg b0 H.lt_one D0.le nD
      simpa [phys, PUnit.base] using this)
  have k2 : Flange.checkBaseR fp ⟨T, PUnit.kelvin, reg.id⟩ "temperature" = .ok () :=
    checkQ_ok lookup_temperature rfl (by rw [baseR_kelvin]; simpa [phys, PUnit.base] using T0)
  have k3 : Flange.checkBaseR fp ⟨P, PUnit.pascal, reg.id⟩ "pressure" = .ok () :=
    checkQ_ok lookup_pressure rfl (by rw [baseR_pascal]; simpa [phys, PUnit.base] using P0)
  have hl : laminarFlameSpeedR fp ct reg (.quantity ⟨T, PUnit.kelvin, reg.id⟩) (.quantity ⟨P, PUnit.pascal, reg.id⟩)
      species mech phase = .ok ⟨S, PUnit.meterPerSecond, reg.id⟩ := by
    simp only [laminarFlameSpeedR, parseQ, k2, k3, baseR_kelvin, baseR_pascal, a1, a2, a3, ok_bind]
  have hs : Near u 2 sigma (fp.rnd (ct.density gu * fp.rnd (1 / ct.density gb))) := by
    have := H.round (Near.mul b0 H.lt_one (Near.refl u (ct.density gu)) (H.round (Near.refl u (1 / ct.density gb))))
    rw [mul_one_div, ← a6] at this
    exact this
  have hr : ¬ (br ≤ 0 ∨ 0.75 < br) := by
    rintro (h | h) <;> linarith
  have vD : NearVal u 0 qD Dim.length D reg.id := ⟨v1.dim, v1.off, by rw [v1.val]; exact Near.refl u D, v1.reg⟩
  obtain ⟨q, e, uq, x1, x2, x3⟩ := runUpChoiceR_near (m := m) (M := M) H Mo r1 rb vD hs S0 c0 D0 s1 r0 m0 m1 hm M1 hM
    (by rw [w1]; exact ho) hu h0 h1
  have pq : q.phys = metres q := by rw [phys, uq, v1.off, add_zero, metres, uq]
  rw [← pq] at x1 x2 x3
  refine ⟨q, x41 S sigma c (mu / rho) D br, x44 S sigma c D br, ?_, uq.trans w1,
    x41_published S0 c0 (by positivity) D0 s1.ne' h0 (by norm_num at h1; linarith), x44_published S0 c0 D0 s1.ne' h0,
    x1, x2, x3⟩
  simp only [runUpR, if_neg hr, p1, parseQ_self, k1, k2, k3, ok_bind, hl, a1, baseR_kelvin, baseR_pascal, a2, a4,
    pyInv_ok a5, a7, a8, a9, a10]
  exact e

/-- C119: given temperature and pressure in other units, `calculate_run_up` does what it does at a temperature and a
pressure that are within a few roundings of them. -/
theorem C119_units (H : fp.Accurate u κ) (hu : (κ + 10) * u ≤ 1 / 100) {wT : PUnit}
    (hT : Denotes reg xT Dim.temperature T) (hwT : UnitOf reg xT wT) (o0 : 0 ≤ wT.offset) (o1 : wT.offset ≤ 300)
    (T0 : 0 ≤ T) (T1 : T ≤ 2000) (hP : DenotesM reg xP Dim.pressure P) (P0 : 0 ≤ P) :
    ∃ T' P', |T' - T| ≤ 2040 * (κ * u) + 4400 * u ∧ |P' - P| ≤ (2 * κ + 2) * u * P ∧
      ∀ (ct : Cantera) (br : ℝ) (xD : QIn) (species : ct.Species) (mech phase : String),
        runUpR fp ct reg br xD xT xP species mech phase =
          runUpR fp ct reg br xD (.quantity ⟨T', PUnit.kelvin, reg.id⟩) (.quantity ⟨P', PUnit.pascal, reg.id⟩)
            species mech phase := by
  have a0 := H.nonneg
  have ku0 : 0 ≤ κ * u := mul_nonneg (Nat.cast_nonneg κ) a0
  obtain ⟨qT, e1, d1, v1, g1⟩ := parse_any hT
  obtain ⟨qP, e2, v2⟩ := parse_spec hP
  have wq : qT.unit = wT := Tube.unit_of_parse e1 hwT
  have php : qP.phys = P := by rw [phys, v2.off, add_zero]; exact v2.val
  have nP := Near.abs a0 H.lt_one (by push_cast; linarith) (Flange.pressure_near H v2.off php)
  rw [abs_of_nonneg P0] at nP
  refine ⟨qT.baseR fp, qP.baseR fp, baseR_err H hu v1 T0 T1 (by rw [wq]; exact o0) (by rw [wq]; exact o1), ?_, ?_⟩
  · refine nP.trans_eq ?_
    push_cast; ring
  intro ct br xD species mech phase
  have cT : Flange.checkBaseR fp qT "temperature" = Flange.checkBaseR fp ⟨qT.baseR fp, PUnit.kelvin, reg.id⟩ "temperature" := by
    simp only [Flange.checkBaseR, baseR_kelvin, d1, g1]; rfl
  have cP : Flange.checkBaseR fp qP "pressure" = Flange.checkBaseR fp ⟨qP.baseR fp, PUnit.pascal, reg.id⟩ "pressure" := by
    simp only [Flange.checkBaseR, baseR_pascal, v2.dim, v2.reg]; rfl
  have sT : parseQ (.quantity qT) reg = .ok qT := by rw [parseQ, ← g1]
  have sP : parseQ (.quantity qP) reg = .ok qP := by rw [parseQ, ← v2.reg]
  simp only [runUpR, laminarFlameSpeedR, e1, e2, parseQ_self, ok_bind, cT, cP, baseR_kelvin, baseR_pascal, sT, sP]

end

end DDT

/-! ### C120: the equilibrium sound speed in floating point -/

namespace Thermochem
open Quantity

variable {fp : FP} {u : ℝ} {κ : ℕ} {reg : Registry} {ct : Cantera} {species : ct.Species} {mech phase : String} {T P : ℝ}

/-- C120: `get_eq_sound_speed` in floating point, at `T` K and `P` Pa.  The pressure step is the intended one up to three
roundings of the pressure, and the result is the square root of the difference quotient over the step that was
taken, up to eight roundings.  `g` is the equilibrium state at `T`, `P`, `after p` the one with the same entropy at
pressure `p`; what Cantera answers is taken as it is. -/
theorem C120_sound_speed (H : fp.Accurate u κ) (hu : u ≤ 1 / 100000) (T0 : 0 ≤ T) (P0 : 0 ≤ P)
    {g : ct.Gas} {after : ℝ → ct.Gas} (p0 : 0 < ct.P g)
    (hg : ∃ g0 g1, ct.solution mech phase = .ok g0 ∧ ct.setTPX g0 T P species = .ok g1 ∧ ct.equilibrate g1 "TP" = .ok g)
    (ha : ∀ p, ct.P g < p → ct.density g < ct.density (after p) ∧
      ∃ g3, ct.setSP g (ct.s g) p = .ok g3 ∧ ct.equilibrate g3 "SP" = .ok (after p)) :
    ∃ p c, eqSoundSpeedR fp ct reg (.quantity ⟨T, PUnit.kelvin, reg.id⟩) (.quantity ⟨P, PUnit.pascal, reg.id⟩)
        species mech phase = .ok ⟨c, PUnit.meterPerSecond, reg.id⟩ ∧
      |p - 1.0001 * ct.P g| ≤ 3 * u * ct.P g ∧ ct.P g < p ∧
      |c - Real.sqrt ((p - ct.P g) / (ct.density (after p) - ct.density g))| ≤
        8 * u * Real.sqrt ((p - ct.P g) / (ct.density (after p) - ct.density g)) := by
  have a0 := H.nonneg; have a1 := H.lt_one
  obtain ⟨g0, g1, s1, s2, s3⟩ := hg
  have k2 : Flange.checkBaseR fp ⟨T, PUnit.kelvin, reg.id⟩ "temperature" = .ok () :=
    checkQ_ok lookup_temperature rfl (by rw [DDT.baseR_kelvin]; simpa [phys, PUnit.base] using T0)
  have k3 : Flange.checkBaseR fp ⟨P, PUnit.pascal, reg.id⟩ "pressure" = .ok () :=
    checkQ_ok lookup_pressure rfl (by rw [DDT.baseR_pascal]; simpa [phys, PUnit.base] using P0)
  generalize hp0 : ct.P g = q0 at *
  generalize hp : fp.rnd (fp.rnd 1.0001 * q0) = p
  have hpe : |p - 1.0001 * q0| ≤ 3 * u * q0 := by
    have r1 := H.rnd 1.0001
    rw [abs_of_pos (show (0 : ℝ) < 1.0001 by norm_num)] at r1
    generalize fp.rnd 1.0001 = k at *
    have r1' := abs_le.mp r1
    norm_num at r1'
    have k0 : 0 < k := by linarith
    have r2 := H.rnd (k * q0)
    rw [hp, abs_of_pos (mul_pos k0 p0)] at r2
    have t1 : |k * q0 - 1.0001 * q0| ≤ 1.0001 * u * q0 := by
      rw [← sub_mul, abs_mul, abs_of_pos p0]
      exact mul_le_mul_of_nonneg_right (r1.trans_eq (mul_comm _ _)) p0.le
    have t2 : u * (k * q0) ≤ 1.01 * u * q0 := by
      have : k * q0 ≤ 1.01 * q0 := mul_le_mul_of_nonneg_right (by norm_num; linarith) p0.le
      have := mul_le_mul_of_nonneg_left this a0
      linarith
    have := abs_add_le (p - k * q0) (k * q0 - 1.0001 * q0)
    rw [sub_add_sub_cancel] at this
    have uq : 0 ≤ u * q0 := mul_nonneg a0 p0.le
    norm_num at *
    linarith
  have hlt : q0 < p := by
    have h := (abs_le.mp hpe).1
    have : 3 * u * q0 ≤ 3 * (1 / 100000) * q0 := mul_le_mul_of_nonneg_right (by linarith) p0.le
    norm_num at *
    linarith
  obtain ⟨hd, g3, s4, s5⟩ := ha p hlt
  have n1 := H.round (Near.refl u (p - q0))
  have n2 := H.round (Near.refl u (ct.density (after p) - ct.density g))
  have hd0 : 0 < ct.density (after p) - ct.density g := by linarith
  have d0 : fp.rnd (ct.density (after p) - ct.density g) ≠ 0 := by
    obtain ⟨θ, a, -, e⟩ := n2
    rw [e]; exact mul_ne_zero hd0.ne' (Near.theta_pos a0 a1 a).ne'
  have n3 := H.round (Near.div a0 a1 n1 n2)
  have q1 : 0 ≤ (p - q0) / (ct.density (after p) - ct.density g) := div_nonneg (by linarith) hd0.le
  have n3' := Near.nonneg a0 a1 q1 n3
  have n4 := Near.rpow a0 a1 (p := 1 / 2) (by norm_num) (by norm_num) q1 n3
  rw [← Real.sqrt_eq_rpow, ← Real.sqrt_eq_rpow] at n4
  have n5 := Near.abs (n := 4) a0 a1 (by push_cast; linarith) (H.round n4)
  rw [abs_of_nonneg (Real.sqrt_nonneg _)] at n5
  refine ⟨p, _, ?_, hpe, hlt, n5.trans_eq (by push_cast; ring)⟩
  simp only [eqSoundSpeedR, DDT.parseQ_self, k2, k3, ok_bind, DDT.baseR_kelvin, DDT.baseR_pascal, s1, s2, s3, hp0, hp, s4,
    s5, pyDiv_ok d0, npSqrt_ok n3']

end Thermochem

/-! ### A case in double precision -/

namespace DDT
open Quantity Thermochem

theorem log_le_thirty {x : ℝ} (h0 : 1 / 10 ^ 13 ≤ x) (h1 : x ≤ 10 ^ 13) : |Real.log x| ≤ 30 := by
  have e : (10 : ℝ) ^ 13 ≤ Real.exp 30 := by
    have h : Real.exp 30 = Real.exp 1 ^ 30 := by rw [← Real.exp_nat_mul]; norm_num
    rw [h]
    calc (10 : ℝ) ^ 13 ≤ 2.718 ^ 30 := by norm_num
      _ ≤ _ := pow_le_pow_left₀ (by norm_num) (by have := Real.exp_one_gt_d9; linarith) 30
  have x0 : 0 < x := lt_of_lt_of_le (by norm_num) h0
  rw [abs_le]
  constructor
  · rw [Real.le_log_iff_exp_le x0, Real.exp_neg]
    refine le_trans ?_ h0
    rw [one_div]
    exact inv_anti₀ (by norm_num) e
  · rw [Real.log_le_iff_le_exp x0]; exact h1.trans e

/-- The sound speed that comes out for `gasWith` in double precision. -/
theorem gasWith_sound (reg : Registry) (S mu : ℝ) : ∃ c : ℝ, |c - 1000| ≤ 1 ∧
    GasAnswersR FP.double (gasWith S 2 1000 mu) reg () "gri30.cti" "" 300 100000 S 2 c 0.2 mu := by
  have hs : ∀ p : ℝ, (gasWith S 2 1000 mu).density ((600, p) : ℝ × ℝ) = p / 1000000 := fun p => by
    simp only [gasWith]; norm_num
  obtain ⟨p, c, e1, e2, e3, e4⟩ := C120_sound_speed (reg := reg) (ct := gasWith S 2 1000 mu) (species := ())
    (mech := "gri30.cti") (phase := "") (T := 600) (P := 100000) (g := ((600, 100000) : ℝ × ℝ))
    (after := fun p => ((600, p) : ℝ × ℝ)) FP.double_accurate (by norm_num) (by norm_num) (by norm_num)
    (show (0 : ℝ) < 100000 by norm_num) ⟨(1, 1), (600, 100000), rfl, rfl, by simp [gasWith]⟩ (fun p hp => by
      refine ⟨?_, (600, p), rfl, by simp [gasWith]⟩
      rw [hs, hs]
      exact div_lt_div_of_pos_right hp (by norm_num))
  have hP : (gasWith S 2 1000 mu).P ((600, 100000) : ℝ × ℝ) = 100000 := rfl
  rw [hs, hs, hP] at e4
  rw [hP] at e3
  have q : (p - 100000) / (p / 1000000 - 100000 / 1000000) = 1000 ^ 2 := by
    rw [← sub_div, div_div_eq_mul_div, mul_comm, mul_div_assoc, div_self (by linarith : p - 100000 ≠ 0)]; norm_num
  rw [q, Real.sqrt_sq (by norm_num)] at e4
  refine ⟨c, e4.trans (by norm_num), ⟨(1, 1), (300, 100000), (600, 100000), (300, 100000), rfl, rfl, rfl, ?_, ?_, ?_, ?_,
    rfl, ?_, rfl⟩⟩
  · simp [gasWith]; norm_num
  · simp [gasWith]
  · simp only [gasWith]; norm_num
  · exact e1
  · simp only [gasWith]; norm_num

/-- C119 in double precision for a tube of 1 m with a blockage ratio of 1/4: the blend of the two published distances to
two parts in `10^12`. -/
example (reg : Registry) : ∃ c q X1 X4, |c - 1000| ≤ 1 ∧
    runUpR FP.double (gasWith 1 2 1000 0.0002) reg (1 / 4) (.quantity ⟨1, PUnit.meter, 0⟩)
      (.quantity ⟨300, PUnit.kelvin, reg.id⟩) (.quantity ⟨100000, PUnit.pascal, reg.id⟩) () "gri30.cti" "" = .ok q ∧
    Published41 1 2 c 0.001 1 (1 / 4) X1 ∧ Published44 1 2 c 1 (1 / 4) X4 ∧
    |q.phys - (1 / 4 * X1 + 3 / 4 * X4)| ≤ 2 / 10 ^ 12 * (X1 + X4) := by
  obtain ⟨c, hc, hg⟩ := gasWith_sound reg 1 0.0002
  have hc' := abs_le.mp hc
  have one : FP.double.rnd 1 = 1 := by
    have := binRnd_exact (p := 53) (k := 1) (j := 0) (by norm_num)
    change binRnd 53 1 = 1
    simpa using this
  have quarter : FP.double.rnd (1 / 4) = 1 / 4 := by
    have := binRnd_exact (p := 53) (k := 1) (j := -2) (by norm_num)
    change binRnd 53 (1 / 4) = 1 / 4
    norm_num at this ⊢
    exact this
  have cube : ((1 / 1000 : ℝ)) ^ (1 / 3 : ℝ) = 1 / 10 := by
    rw [show (1 / 1000 : ℝ) = (1 / 10) ^ (3 : ℝ) by norm_num, ← Real.rpow_mul (by norm_num)]; norm_num
  have nu : (0.0002 / 0.2 / 1 / 1 : ℝ) = 1 / 1000 := by norm_num
  obtain ⟨q, X1, X4, e, -, p1, p4, -, -, hq⟩ := C119_accuracy (br := 1 / 4) (m := 2) (M := 4) (D := 1) (w := PUnit.meter)
    (xD := .quantity ⟨1, PUnit.meter, 0⟩) FP.double_accurate FP.double_monotone one quarter
    ⟨⟨rfl, by simp [PUnit.meter, PUnit.base]⟩, rfl⟩ rfl hg (by norm_num) (by norm_num) (by norm_num) (by linarith)
    (by norm_num) (by norm_num) (by norm_num) (by norm_num) (by norm_num) (by norm_num) (by norm_num) (by norm_num)
    (fun _ => ⟨by rw [Ordinary, nu, cube]; norm_num; linarith, by simp [PUnit.meter, PUnit.base],
      by rw [nu]; exact log_le_thirty (by norm_num) (by norm_num),
      log_le_thirty (by rw [le_div_iff₀ (by norm_num)]; norm_num; linarith)
        (by rw [div_le_iff₀ (by norm_num)]; norm_num; linarith)⟩)
    (by norm_num [smoothCount]) (by norm_num) (by norm_num)
  have X10 : 0 < X1 + X4 := by
    have h1 := (C11_published_unique (br := 1 / 4) (nu := 0.0002 / 0.2) (S := 1) (sigma := 2) (c := c) (D := 1) one_pos
      (by linarith) one_pos (by norm_num)).2 p1 (x41_published one_pos (by linarith) (by norm_num) one_pos (by norm_num)
        (by norm_num) (by norm_num))
    have h4 := (C11_published_unique (br := 1 / 4) (nu := 0.0002 / 0.2) (S := 1) (sigma := 2) (c := c) (D := 1) one_pos
      (by linarith) one_pos (by norm_num)).1 p4 (x44_published one_pos (by linarith) one_pos (by norm_num) (by norm_num))
    rw [h1, h4]
    refine add_pos (x41_pos one_pos (by linarith) (by norm_num) one_pos (by norm_num) ?_ (by norm_num) (by norm_num))
      (x44_pos one_pos (by linarith) one_pos (by norm_num) (by norm_num) (by norm_num))
    rw [Ordinary, nu, cube]; norm_num; linarith
  refine ⟨c, q, X1, X4, hc, e, by norm_num at p1 ⊢; exact p1, p4, ?_⟩
  have := hq (by norm_num) (by norm_num)
  norm_num [smoothCount] at this ⊢
  refine this.trans (mul_le_mul_of_nonneg_right (by norm_num) X10.le)

/-- 27 degrees Celsius and one bar, in double precision. -/
example (reg : Registry) : ∃ T' P' : ℝ, |T' - 300.15| ≤ 1 / 10 ^ 12 ∧ |P' - 100000| ≤ 1 / 10 ^ 10 ∧
    ∀ (ct : Cantera) (br : ℝ) (xD : QIn) (species : ct.Species) (mech phase : String),
      runUpR FP.double ct reg br xD (.quantity ⟨27, PUnit.degC, 0⟩) (.quantity ⟨1, PUnit.bar, 0⟩) species mech phase =
        runUpR FP.double ct reg br xD (.quantity ⟨T', PUnit.kelvin, reg.id⟩) (.quantity ⟨P', PUnit.pascal, reg.id⟩)
          species mech phase := by
  obtain ⟨T', P', h1, h2, h3⟩ := C119_units (reg := reg) (xT := .quantity ⟨27, PUnit.degC, 0⟩)
    (xP := .quantity ⟨1, PUnit.bar, 0⟩) (T := 300.15) (P := 100000) (wT := PUnit.degC) FP.double_accurate (by norm_num)
    ⟨rfl, by norm_num [PUnit.degC]⟩ rfl (by norm_num [PUnit.degC]) (by norm_num [PUnit.degC]) (by norm_num) (by norm_num)
    ⟨⟨rfl, by norm_num [PUnit.bar]⟩, rfl⟩ (by norm_num)
  exact ⟨T', P', h1.trans (by norm_num), h2.trans (by norm_num), h3⟩

end DDT

end Pypbomb
