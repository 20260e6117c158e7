/-
C97, C98: rounding in `Tube.dynamic_load_factor` and in the blockage calculations of `DDT`.
-/
import Verif.Props.Rounded
import Verif.Props.Tube
import Verif.Lemmas.DDT

namespace Pypbomb

namespace Quantity

variable {fp : FP} {u : ℝ} {κ n m r : ℕ} {a b : Quantity} {d e : Dim} {x y : ℝ}

theorem divNumR_spec (H : fp.Accurate u κ) {k : ℝ} (hk : k ≠ 0) (ha : NearVal u n a d x r) :
    ∃ c, a.divNumR fp k = .ok c ∧ NearVal u (n + 1) c d (x / k) r ∧ c.unit = a.unit := by
  have o1 : noOffset a = .ok () := if_pos ha.off
  refine ⟨⟨fp.rnd (a.mag / k), a.unit, a.reg⟩, ?_, ⟨ha.dim, ha.off, ?_, ha.reg⟩, rfl⟩
  · simp only [divNumR, o1, ok_bind, if_neg hk]
  · have hs := a.unit.pos
    have h2 : Near u n (x / k / a.unit.scale) (a.mag / k) := by
      obtain ⟨θ, p, q, e⟩ := ha.val
      refine ⟨θ, p, q, ?_⟩
      have : a.mag = x * θ / a.unit.scale := by rw [← e]; field_simp
      rw [this]; field_simp
    have h3 := Near.mul H.nonneg H.lt_one (H.round h2) (Near.refl u a.unit.scale)
    rw [div_mul_cancel₀ _ hs.ne'] at h3
    exact h3

theorem quarterR_spec (H : fp.Accurate u κ) (ha : NearVal u n a d x r) (hx : 0 ≤ x) :
    ∃ c, a.powR fp (1 / 4) = .ok c ∧ NearVal u (n + 1) c (d.pow (1 / 4)) (x ^ ((1 / 4 : ℚ) : ℝ)) r := by
  have o1 : noOffset a = .ok () := if_pos ha.off
  have hs0 := a.unit.pos
  have hm : 0 ≤ a.mag := by
    have := Near.nonneg H.nonneg H.lt_one hx ha.val
    exact nonneg_of_mul_nonneg_left this hs0
  refine ⟨⟨fp.rnd (a.mag ^ ((1 / 4 : ℚ) : ℝ)), a.unit.pow (1 / 4), a.reg⟩, ?_, ?_, rfl, ?_, ha.reg⟩
  · simp only [powR, o1, ok_bind]
    rw [if_neg (by rintro ⟨h, -⟩; linarith), if_neg (by norm_num)]
  · change a.unit.dim.pow (1 / 4) = _
    rw [ha.dim]
  · change Near u (n + 1) (x ^ ((1 / 4 : ℚ) : ℝ)) (fp.rnd (a.mag ^ ((1 / 4 : ℚ) : ℝ)) * (a.unit.scale ^ ((1 / 4 : ℚ) : ℝ)))
    have hs : 0 < a.unit.scale ^ ((1 / 4 : ℚ) : ℝ) := Real.rpow_pos_of_pos hs0 _
    have h1 := Near.rpow H.nonneg H.lt_one (p := ((1 / 4 : ℚ) : ℝ)) (by norm_num) (by norm_num) hx ha.val
    rw [Real.mul_rpow hm hs0.le] at h1
    have h2 : Near u n (x ^ ((1 / 4 : ℚ) : ℝ) / a.unit.scale ^ ((1 / 4 : ℚ) : ℝ)) (a.mag ^ ((1 / 4 : ℚ) : ℝ)) := by
      obtain ⟨θ, p, q, e⟩ := h1
      refine ⟨θ, p, q, ?_⟩
      rw [div_mul_eq_mul_div, eq_div_iff hs.ne', ← e]
    have h3 := Near.mul H.nonneg H.lt_one (H.round h2) (Near.refl u (a.unit.scale ^ ((1 / 4 : ℚ) : ℝ)))
    rw [div_mul_cancel₀ _ hs.ne'] at h3
    exact h3

end Quantity

theorem bernoulli {u : ℝ} (h1 : u < 1) (n : ℕ) : 1 - n * u ≤ (1 - u) ^ n := by
  have := one_add_mul_le_pow (show (-2 : ℝ) ≤ -u by linarith) n
  calc 1 - n * u = 1 + n * -u := by ring
    _ ≤ (1 + -u) ^ n := this
    _ = (1 - u) ^ n := by ring

/-- Rounded numbers are ordered like the exact ones, unless these are within the error bound of each other. -/
theorem Near.compare {u V L v l : ℝ} {n m : ℕ} (h0 : 0 ≤ u) (h1 : u < 1) (hu : ((n + m : ℕ) : ℝ) * u < 1)
    (hv : Near u n V v) (hl : Near u m L l) (hL : 0 ≤ L)
    (hd : ((n + m : ℕ) : ℝ) * u / (1 - ((n + m : ℕ) : ℝ) * u) * L < |V - L|) :
    (v < l ↔ V < L) ∧ (l < v ↔ L < V) := by
  obtain ⟨a, a1, a2, rfl⟩ := hv
  obtain ⟨b, b1, b2, rfl⟩ := hl
  have pn := Near.pow_bounds h0 h1 n
  have pm := Near.pow_bounds h0 h1 m
  have ha := Near.theta_pos h0 h1 a1
  have hb := Near.theta_pos h0 h1 b1
  have hB := bernoulli h1 (n + m)
  rw [pow_add] at hB
  have hN : 0 ≤ ((n + m : ℕ) : ℝ) * u := mul_nonneg (Nat.cast_nonneg _) h0
  generalize ((n + m : ℕ) : ℝ) * u = N at *
  have hN1 : 0 < 1 - N := by linarith
  have hε : N ≤ N / (1 - N) := by rw [le_div_iff₀ hN1]; nlinarith
  have hε1 : 1 + N / (1 - N) = 1 / (1 - N) := by field_simp; ring
  have hεL : 0 ≤ N / (1 - N) * L := mul_nonneg (hN.trans hε) hL
  generalize (1 - u) ^ n = A at *
  generalize (1 - u) ^ m = B at *
  have hne : V ≠ L := by
    rintro rfl
    rw [sub_self, abs_zero] at hd
    linarith
  rcases lt_or_gt_of_ne hne with h | h
  · have key : V * a < L * b := by
      rcases le_or_gt V 0 with hV | hV
      · rcases hL.eq_or_lt with hz | hz
        · rw [← hz, zero_mul]
          exact mul_neg_of_neg_of_pos (by linarith) ha
        · have h2 : 0 < L * b := mul_pos hz hb
          have h3 : V * a ≤ 0 := mul_nonpos_of_nonpos_of_nonneg hV ha.le
          linarith
      · rw [abs_of_neg (by linarith)] at hd
        have hLp : 0 < L := hV.trans h
        have h2 : V < L * (1 - N) := by nlinarith
        have h3 : V < L * (A * B) := h2.trans_le (mul_le_mul_of_nonneg_left hB hL)
        have h4 : V * a * A ≤ V := by nlinarith
        have h5 : V * a * A < L * B * A := by nlinarith
        have h6 : V * a < L * B := lt_of_mul_lt_mul_right h5 pn.1.le
        nlinarith
    exact ⟨⟨fun _ => h, fun _ => key⟩, ⟨fun h' => absurd key (not_lt.mpr h'.le), fun h' => absurd h (not_lt.mpr h'.le)⟩⟩
  · have key : L * b < V * a := by
      rw [abs_of_pos (by linarith)] at hd
      have hV : 0 < V := hL.trans_lt h
      have h2 : L * (1 / (1 - N)) < V := by rw [← hε1]; linarith
      have h3 : L < V * (1 - N) := by
        rw [mul_one_div, div_lt_iff₀ hN1] at h2; exact h2
      have h4 : L < V * (A * B) := h3.trans_le (mul_le_mul_of_nonneg_left hB hV.le)
      have h5 : L * b * B ≤ L := by nlinarith
      have h6 : L * b * B < V * A * B := by nlinarith
      have h7 : L * b < V * A := lt_of_mul_lt_mul_right h6 pm.1.le
      nlinarith
    exact ⟨⟨fun h' => absurd key (not_lt.mpr h'.le), fun h' => absurd h (not_lt.mpr h'.le)⟩, ⟨fun _ => h, fun _ => key⟩⟩

namespace Tube
open Quantity

variable {fp : FP} {u : ℝ} {κ : ℕ} {qv qE qr : Quantity} {i o v E rho nu pm di do_ : ℝ} {w : PUnit} {r r' : ℕ}

/-- With exact arithmetic the rounded `dynamic_load_factor` is `dynamic_load_factor`. -/
theorem C97_exact (id od velocity modulus density : QIn) (poisson pm : ℝ) :
    dynamicLoadFactorR FP.exact id od velocity modulus density poisson pm =
      dynamicLoadFactor id od velocity modulus density poisson pm := by
  have e : ∀ x, FP.exact.rnd x = x := fun _ => rfl
  simp only [dynamicLoadFactorR, dynamicLoadFactor, critVelocityR, critVelocity, addR_exact, subR_exact, mulR_exact,
    divR_exact, scaleR_exact, divNumR_exact, powR_exact, convertR_exact, e]

theorem near_one_sub_sq (H : fp.Accurate u κ) (hnu : nu ^ 2 ≤ 1 / 2) :
    Near u 2 (1 - nu ^ 2) (fp.rnd (1 - fp.rnd (nu ^ 2))) := by
  apply H.round
  have h := H.rnd (nu ^ 2)
  have h0 := H.nonneg
  rw [abs_of_nonneg (sq_nonneg nu), abs_le] at h
  have hp : 0 < 1 - nu ^ 2 := by linarith
  have hq : u * nu ^ 2 ≤ u * (1 - nu ^ 2) := mul_le_mul_of_nonneg_left (by linarith) h0
  refine ⟨(1 - fp.rnd (nu ^ 2)) / (1 - nu ^ 2), ?_, ?_, ?_⟩
  · rw [pow_one, le_div_iff₀ hp]; linarith
  · rw [pow_one, div_mul_eq_mul_div, div_le_one hp]
    nlinarith [H.lt_one]
  · rw [mul_div_cancel₀ _ hp.ne']

theorem critVelocityR_near (H : fp.Accurate u κ) (h : DlfArgs ⟨di, w, r⟩ ⟨do_, w, r⟩ qv qE qr i o v E rho nu r r')
    (hnu : nu ^ 2 ≤ 1 / 2) (hc : fp.conv w w = 1) (fi : fp.rnd di = di) :
    ∃ q, critVelocityR fp ⟨di, w, r⟩ ⟨do_, w, r⟩ qE qr nu = .ok q ∧
      NearVal u 20 q Dim.velocity (Vcrit i o E rho nu) r := by
  have wp := w.pos
  have ow : w.offset = 0 := h.hi.off
  have vi : di * w.scale = i := h.hi.val
  have vo : do_ * w.scale = o := h.ho.val
  have hm : fp.rnd (di * fp.conv w w) = di := by rw [hc, mul_one, fi]
  have nE : NearVal u 0 qE Dim.pressure E r := ⟨h.hE.dim, h.hE.off, by rw [h.hE.val]; exact Near.refl u E, h.hE.reg⟩
  have nR : NearVal u 0 qr Dim.density rho r := ⟨h.hr.dim, h.hr.off, by rw [h.hr.val]; exact Near.refl u rho, h.hr.reg⟩
  have e1 : (⟨do_, w, r⟩ : Quantity).addR fp ⟨di, w, r⟩ = .ok ⟨fp.rnd (do_ + di), w, r⟩ := by
    simp only [Quantity.addR, sameReg, noOffset, ow, if_true, ok_bind, hm]
  have e3 : (⟨do_, w, r⟩ : Quantity).subR fp ⟨di, w, r⟩ = .ok ⟨fp.rnd (do_ - di), w, r⟩ := by
    simp only [Quantity.subR, sameReg, noOffset, ow, if_true, ok_bind, hm]
  have n1 : NearVal u 1 ⟨fp.rnd (do_ + di), w, r⟩ Dim.length (o + i) r := by
    refine ⟨h.hi.dim, ow, ?_, rfl⟩
    have := Near.mul H.nonneg H.lt_one (H.round (Near.refl u (do_ + di))) (Near.refl u w.scale)
    rw [← vi, ← vo, ← add_mul]; exact this
  have n3 : NearVal u 1 ⟨fp.rnd (do_ - di), w, r⟩ Dim.length (o - i) r := by
    refine ⟨h.hi.dim, ow, ?_, rfl⟩
    have := Near.mul H.nonneg H.lt_one (H.round (Near.refl u (do_ - di))) (Near.refl u w.scale)
    rw [← vi, ← vo, ← sub_mul]; exact this
  obtain ⟨c2, e2, h2, -⟩ := divNumR_spec H (k := 4) (by norm_num) n1
  obtain ⟨c4, e4, h4, -⟩ := divNumR_spec H (k := 2) (by norm_num) n3
  obtain ⟨c5, e5, h5⟩ := sqR_spec H nE
  obtain ⟨c6, e6, h6⟩ := sqR_spec H h4
  obtain ⟨c7, e7, h7⟩ := mulR_spec H h5 h6
  obtain ⟨c8, e8, h8⟩ := sqR_spec H nR
  obtain ⟨c9, e9, h9, -⟩ := scaleR_spec H (Near.refl u 3) h8
  obtain ⟨c10, e10, h10⟩ := sqR_spec H h2
  obtain ⟨c11, e11, h11⟩ := mulR_spec H h9 h10
  obtain ⟨c12, e12, h12, -⟩ := scaleR_spec H (near_one_sub_sq H hnu) h11
  have h0 : (1 - nu ^ 2) * (3 * rho ^ 2 * ((o + i) / 4) ^ 2) ≠ 0 := by
    have := h.nu1; have := h.rho0; have := h.s0
    have : 0 < 1 - nu ^ 2 := by linarith
    positivity
  obtain ⟨c13, e13, h13⟩ := divR_spec H h7 h12 h0
  obtain ⟨c14, e14, h14⟩ := quarterR_spec H h13 (crit4_nonneg h.nu1)
  refine ⟨c14, ?_, Window.NearVal.cast h14 (by dims) (crit4_root i o E rho nu) (by norm_num)⟩
  simp only [critVelocityR, e1, e2, e3, e4, e5, e6, e7, e8, e9, e10, e11, e12, e13, e14, ok_bind]

/-- C97: with diameters that are floating-point numbers in the same unit and a Poisson ratio of at most `1/√2`, the
dynamic load factor computed in floating point is the exact one, unless the wave speed agrees with an edge of the
resonance band `(1 ± pm) Vcrit` to a relative error of `n u / (1 - n u)`, `n = 2 κ + 26`. -/
theorem C97_right_off_the_edges (H : fp.Accurate u κ) (hu : ((2 * κ + 26 : ℕ) : ℝ) * u < 1)
    (h : DlfArgs ⟨di, w, r⟩ ⟨do_, w, r⟩ qv qE qr i o v E rho nu r r') (hpm : 0 < pm ∧ pm < 1)
    (hnu : nu ^ 2 ≤ 1 / 2) (hc : fp.conv w w = 1) (fi : fp.rnd di = di)
    (hlo : ¬ RelClose u (2 * κ + 26) ((1 - pm) * Vcrit i o E rho nu) v)
    (hhi : ¬ RelClose u (2 * κ + 26) ((1 + pm) * Vcrit i o E rho nu) v) :
    dynamicLoadFactorR fp (.quantity ⟨di, w, r⟩) (.quantity ⟨do_, w, r⟩) (.quantity qv) (.quantity qE) (.quantity qr)
        nu pm =
      dynamicLoadFactor (.quantity ⟨di, w, r⟩) (.quantity ⟨do_, w, r⟩) (.quantity qv) (.quantity qE) (.quantity qr)
        nu pm := by
  rw [dlf_eval h.hi h.ho h.hv h.hE h.hr h.i0 h.o0 h.s0 h.E0 h.rho0 h.nu1 hpm, crit4_root]
  obtain ⟨qc, ec, nc⟩ := critVelocityR_near H h hnu hc fi
  have hV : 0 ≤ Vcrit i o E rho nu := (C32_Vcrit_fourth_power h.nu1).1
  have nv : NearVal u 0 qv Dim.velocity v r' := ⟨h.hv.dim, h.hv.off, by rw [h.hv.val]; exact Near.refl u v, h.hv.reg⟩
  obtain ⟨c1, e1, h1, -⟩ := scaleR_spec H (H.round (Near.refl u (1 + pm))) nc
  obtain ⟨c2, e2, h2, u2⟩ := convertR_spec H (t := PUnit.meterPerSecond) h1 rfl rfl
  obtain ⟨c3, e3, h3, -⟩ := scaleR_spec H (H.round (Near.refl u (1 - pm))) nc
  obtain ⟨c4, e4, h4, u4⟩ := convertR_spec H (t := PUnit.meterPerSecond) h3 rfl rfl
  obtain ⟨c5, e5, h5, u5⟩ := convertR_spec H (t := PUnit.meterPerSecond) nv rfl rfl
  have one : PUnit.meterPerSecond.scale = 1 := rfl
  have m2 := h2.val
  have m4 := h4.val
  have m5 := h5.val
  rw [u2, one, mul_one] at m2
  rw [u4, one, mul_one] at m4
  rw [u5, one, mul_one] at m5
  have en : 0 + κ + 2 + (20 + (0 + 1) + 1 + κ + 2) = 2 * κ + 26 := by ring
  have cmp : ∀ {L l : ℝ}, 0 ≤ L → Near u (20 + (0 + 1) + 1 + κ + 2) L l → ¬ RelClose u (2 * κ + 26) L v →
      (c5.mag < l ↔ v < L) ∧ (l < c5.mag ↔ L < v) := by
    intro L l hL hl hn
    unfold RelClose at hn
    rw [not_le, abs_of_nonneg hL] at hn
    exact Near.compare H.nonneg H.lt_one (by rw [en]; exact hu) m5 hl hL (by rw [en]; exact hn)
  have k1 := cmp (mul_nonneg (by linarith [hpm.2]) hV) m4 hlo
  have k2 := cmp (mul_nonneg (by linarith [hpm.1]) hV) m2 hhi
  simp only [dynamicLoadFactorR, checked_ok lookup_length h.hi (fun _ => h.i0),
    checked_ok lookup_length h.ho (fun _ => h.o0),
    checked_ok (pos := false) lookup_velocity h.hv (fun h => by simp at h),
    checked_ok lookup_pressure h.hE (fun _ => h.E0), checked_ok lookup_density h.hr (fun _ => h.rho0.le),
    ok_bind, if_neg (not_not.mpr hpm), ec, e1, e2, e3, e4, e5, k1.1, k2.2]
  split
  · rfl
  · split <;> rfl

/-- A 4/4.5 inch steel tube and a wave of 2000 m/s, in double precision: the factor is exactly the right one. -/
example : dynamicLoadFactorR FP.double (.quantity ⟨4, PUnit.inch, 0⟩) (.quantity ⟨4.5, PUnit.inch, 0⟩)
      (.quantity ⟨2000, PUnit.meterPerSecond, 1⟩) (.quantity ⟨200, PUnit.gigapascal, 0⟩)
      (.quantity ⟨7.8, PUnit.gramPerCC, 0⟩) 0.28 0.1 =
    dynamicLoadFactor (.quantity ⟨4, PUnit.inch, 0⟩) (.quantity ⟨4.5, PUnit.inch, 0⟩)
      (.quantity ⟨2000, PUnit.meterPerSecond, 1⟩) (.quantity ⟨200, PUnit.gigapascal, 0⟩)
      (.quantity ⟨7.8, PUnit.gramPerCC, 0⟩) 0.28 0.1 := by
  have hD : DlfArgs ⟨4, PUnit.inch, 0⟩ ⟨4.5, PUnit.inch, 0⟩ ⟨2000, PUnit.meterPerSecond, 1⟩
      ⟨200, PUnit.gigapascal, 0⟩ ⟨7.8, PUnit.gramPerCC, 0⟩ 0.1016 0.1143 2000 200000000000 7800 0.28 0 1 := by
    refine ⟨⟨rfl, rfl, ?_, rfl⟩, ⟨rfl, rfl, ?_, rfl⟩, ⟨rfl, rfl, ?_, rfl⟩, ⟨rfl, rfl, ?_, rfl⟩,
      ⟨rfl, rfl, ?_, rfl⟩, ?_, ?_, ?_, ?_, ?_, ?_⟩ <;>
    norm_num [PUnit.inch, PUnit.meterPerSecond, PUnit.base, PUnit.gigapascal, PUnit.gramPerCC]
  have hV := C32_Vcrit_fourth_power (i := 0.1016) (o := 0.1143) (E := 200000000000) (rho := 7800) (nu := 0.28) (by norm_num)
  have h4 : Vcrit 0.1016 0.1143 200000000000 7800 0.28 < 1400 := by
    by_contra hc
    push Not at hc
    have h5 := pow_le_pow_left₀ (by norm_num) hc 4
    rw [hV.2] at h5
    norm_num at h5
  refine C97_right_off_the_edges FP.double_accurate (by norm_num) hD (by norm_num) (by norm_num) ?_ ?_ ?_ ?_
  · have : PUnit.inch.scale / PUnit.inch.scale = 1 := div_self PUnit.inch.pos.ne'
    simp only [FP.double, this]
    have := binRnd_exact (p := 53) (k := 1) (j := 0) (by norm_num)
    simpa using this
  · change binRnd 53 4 = 4
    have := binRnd_exact (p := 53) (k := 4) (j := 0) (by norm_num)
    simpa using this
  all_goals
    have h0 := hV.1
    generalize Vcrit 0.1016 0.1143 200000000000 7800 0.28 = V at h0 h4
    unfold RelClose
    rw [not_le, abs_of_nonneg (by norm_num; positivity), abs_of_pos (by norm_num; linarith)]
    norm_num
    linarith

end Tube

namespace DDT
open Quantity

variable {fp : FP} {u : ℝ} {κ : ℕ} {reg : Registry} {x : QIn} {D br : ℝ}

/-- With exact arithmetic the rounded functions are the functions. -/
theorem C98_exact (reg : Registry) (x y : QIn) (br : ℝ) :
    blockageDiameterR FP.exact reg x br = blockageDiameter reg x (.num br) ∧
      blockageRatioR FP.exact reg x y = blockageRatio reg x y := by
  have e : ∀ x, FP.exact.rnd x = x := fun _ => rfl
  constructor
  · simp only [blockageDiameterR, blockageDiameter, divNumR_exact, scaleR_exact, e, ok_bind]
  · simp only [blockageRatioR, blockageRatio, toBaseR_exact, e]

theorem rnd_abs (H : fp.Accurate u κ) {a z : ℝ} (hz : |z| ≤ a) : |fp.rnd z - z| ≤ u * a :=
  (H.rnd z).trans (mul_le_mul_of_nonneg_left hz H.nonneg)

/-- The last steps of the round trip, in numbers: `s = √(1 - br)`, `f` the computed `1 - s`, `q` the computed `2 d / D`. -/
theorem round_trip_num (H : fp.Accurate u κ) {s f q e1 e2 : ℝ} (h0 : 0 ≤ s) (h1 : s ≤ 1)
    (hf : |f - (1 - s)| ≤ e1) (hq : |q - f| ≤ e2) (hu : u ≤ 1 / 100) (he : e1 + e2 ≤ 1 / 10) (he0 : 0 ≤ e1 + e2) :
    |fp.rnd (1 - fp.rnd (fp.rnd (1 - q) ^ 2)) - (1 - s ^ 2)| ≤ 3 * (e1 + e2) + 7 * u := by
  have hu0 := H.nonneg
  have a1 : |1 - q - s| ≤ e1 + e2 := by
    have := abs_add_le (f - (1 - s)) (q - f)
    rw [show 1 - q - s = -((f - (1 - s)) + (q - f)) by ring, abs_neg]
    linarith
  have b1 : |1 - q| ≤ 1.1 := by
    rw [abs_le] at a1 ⊢; constructor <;> linarith [a1.1, a1.2]
  have r1 := rnd_abs H b1
  generalize fp.rnd (1 - q) = y at r1 ⊢
  have a2 : |y - s| ≤ e1 + e2 + u * 1.1 := by
    have := abs_add_le (y - (1 - q)) (1 - q - s)
    rw [show y - s = (y - (1 - q)) + (1 - q - s) by ring]
    linarith
  have b2 : |y| ≤ 1.2 := by
    rw [abs_le] at a2 ⊢; constructor <;> linarith [a2.1, a2.2]
  have a3 : |y ^ 2 - s ^ 2| ≤ (e1 + e2 + u * 1.1) * 2.2 := by
    rw [show y ^ 2 - s ^ 2 = (y - s) * (y + s) by ring, abs_mul]
    have : |y + s| ≤ 2.2 := by
      rw [abs_le] at b2 ⊢; constructor <;> linarith [b2.1, b2.2]
    exact mul_le_mul a2 this (abs_nonneg _) (by linarith)
  have b3 : |y ^ 2| ≤ 1.44 := by
    rw [abs_of_nonneg (sq_nonneg y), ← sq_abs]; nlinarith [abs_nonneg y]
  have r2 := rnd_abs H b3
  generalize fp.rnd (y ^ 2) = z at r2 ⊢
  have b4 : |1 - z| ≤ 1.02 := by
    have : y ^ 2 ≤ 1.44 := (le_abs_self _).trans b3
    have h2 := sq_nonneg y
    rw [abs_le] at r2 ⊢; constructor <;> linarith [r2.1, r2.2]
  have r3 := rnd_abs H b4
  have t1 := abs_add_le (fp.rnd (1 - z) - (1 - z)) (-(z - y ^ 2) + -(y ^ 2 - s ^ 2))
  have t2 := abs_add_le (-(z - y ^ 2)) (-(y ^ 2 - s ^ 2))
  rw [abs_neg, abs_neg] at t2
  rw [show fp.rnd (1 - z) - (1 - s ^ 2) = (fp.rnd (1 - z) - (1 - z)) + (-(z - y ^ 2) + -(y ^ 2 - s ^ 2)) by ring]
  nlinarith

theorem Near.trans {u a b c : ℝ} {n m : ℕ} (h0 : 0 ≤ u) (h1 : u < 1) (h : Near u n a b) (h' : Near u m b c) :
    Near u (n + m) a c := by
  obtain ⟨θ', p', q', e'⟩ := h'
  have := Near.mul h0 h1 h (⟨θ', p', q', (one_mul θ').symm⟩ : Near u m 1 θ')
  rw [mul_one] at this
  rw [e']; exact this

/-- The computed `1 - √(1 - br)`: between 0 and 1 and right to 3.2 roundings of 1. -/
theorem factor_near (H : fp.Accurate u κ) (M : fp.Monotone) (h1 : fp.rnd 1 = 1) (hu : u ≤ 1 / 100) (b0 : 0 < br)
    (b1 : br < 1) :
    0 ≤ fp.rnd (1 - fp.rnd (Real.sqrt (fp.rnd (1 - br)))) ∧ fp.rnd (1 - fp.rnd (Real.sqrt (fp.rnd (1 - br)))) ≤ 1 ∧
      |fp.rnd (1 - fp.rnd (Real.sqrt (fp.rnd (1 - br)))) - (1 - Real.sqrt (1 - br))| ≤ 3.2 * u := by
  have h0 := H.nonneg
  have n1 : Near u 1 (1 - br) (fp.rnd (1 - br)) := H.round (Near.refl u _)
  have n2 := Near.rpow h0 H.lt_one (p := 1 / 2) (by norm_num) (by norm_num) (by linarith : (0 : ℝ) ≤ 1 - br) n1
  rw [← Real.sqrt_eq_rpow, ← Real.sqrt_eq_rpow] at n2
  have n3 := H.round n2
  have s0 := Real.sqrt_nonneg (1 - br)
  have s1 : Real.sqrt (1 - br) ≤ 1 := Real.sqrt_le_one.mpr (by linarith)
  have t0 : 0 ≤ fp.rnd (Real.sqrt (fp.rnd (1 - br))) := by
    have := M.mono _ _ (Real.sqrt_nonneg (fp.rnd (1 - br))); rwa [M.zero] at this
  have t1 : fp.rnd (Real.sqrt (fp.rnd (1 - br))) ≤ 1 := by
    have h2 : fp.rnd (1 - br) ≤ 1 := by rw [← h1]; exact M.mono _ _ (by linarith)
    have h3 := M.mono _ _ (Real.sqrt_le_one.mpr h2)
    rwa [h1] at h3
  have hb := Near.bound h0 H.lt_one (by norm_num; linarith) n3
  generalize fp.rnd (Real.sqrt (fp.rnd (1 - br))) = t at *
  generalize Real.sqrt (1 - br) = s at *
  refine ⟨?_, ?_, ?_⟩
  · have := M.mono 0 (1 - t) (by linarith); rwa [M.zero] at this
  · have := M.mono (1 - t) 1 (by linarith); rwa [h1] at this
  · have r := rnd_abs H (a := 1) (z := 1 - t) (by rw [abs_le]; constructor <;> linarith)
    have hb' : |t - s| ≤ 2.1 * u := by
      refine hb.trans ?_
      rw [abs_of_nonneg s0]
      have : ((1 + 1 : ℕ) : ℝ) * u / (1 - ((1 + 1 : ℕ) : ℝ) * u) ≤ 2.1 * u := by
        rw [div_le_iff₀ (by norm_num; linarith)]
        norm_num
        nlinarith
      calc _ ≤ 2.1 * u * s := mul_le_mul_of_nonneg_right this s0
        _ ≤ 2.1 * u * 1 := mul_le_mul_of_nonneg_left s1 (by linarith)
        _ = _ := mul_one _
    have := abs_add_le (fp.rnd (1 - t) - (1 - t)) (-(t - s))
    rw [abs_neg] at this
    rw [show fp.rnd (1 - t) - (1 - s) = (fp.rnd (1 - t) - (1 - t)) + -(t - s) by ring]
    linarith

/-- C98: in floating point, the blockage ratio computed from the computed blockage diameter is the requested one up to
`(8 κ + 46) u`, whatever the tube, its unit and the ratio; neither call raises. -/
theorem C98_round_trip (H : fp.Accurate u κ) (M : fp.Monotone) (h1 : fp.rnd 1 = 1)
    (hu : ((2 * κ + 8 : ℕ) : ℝ) * u ≤ 1 / 20) (hx : DenotesM reg x Dim.length D) (D0 : 0 < D) (b0 : 0 < br)
    (b1 : br < 1) :
    ∃ d y, blockageDiameterR fp reg x br = .ok d ∧ 0 ≤ d.mag ∧ blockageRatioR fp reg x (.quantity d) = .ok y ∧
      |y - br| ≤ (8 * κ + 46) * u := by
  have h0 := H.nonneg
  have hl := H.lt_one
  have hu' : u ≤ 1 / 160 := by
    have : (8 : ℝ) * u ≤ ((2 * κ + 8 : ℕ) : ℝ) * u := mul_le_mul_of_nonneg_right (by push_cast; linarith [Nat.cast_nonneg (α := ℝ) κ]) h0
    linarith
  obtain ⟨f0, f1, hf⟩ := factor_near H M h1 (by linarith) b0 b1
  generalize hfd : fp.rnd (1 - fp.rnd (Real.sqrt (fp.rnd (1 - br)))) = f at f0 f1 hf
  -- the diameter
  obtain ⟨q, e, hq⟩ := parse_spec hx
  have nq : NearVal u 0 q Dim.length D reg.id := ⟨hq.dim, hq.off, by rw [hq.val]; exact Near.refl u D, hq.reg⟩
  obtain ⟨c1, e1, v1, -⟩ := divNumR_spec H (k := 2) (by norm_num) nq
  obtain ⟨d, e2, v2, -⟩ := scaleR_spec H (Near.refl u f) v1
  have hd : blockageDiameterR fp reg x br = .ok d := by
    simp only [blockageDiameterR, if_neg (not_not.mpr (⟨b0, b1⟩ : 0 < br ∧ br < 1)), e, ok_bind, check_len hq D0.le true, e1,
      hfd, e2]
  have p0 : 0 ≤ f * (D / 2) := by positivity
  have dphys : 0 ≤ d.mag * d.unit.scale := Near.nonneg h0 hl p0 v2.val
  -- the ratio
  obtain ⟨t, pt, ct, vt, ut⟩ := Window.base_parseR H lookup_length hx D0.le
  have hdd : DenotesM reg (.quantity d) Dim.length (d.mag * d.unit.scale) :=
    ⟨⟨v2.dim, by rw [v2.off, add_zero]⟩, v2.off⟩
  obtain ⟨b, pb, cb, vb, ub⟩ := Window.base_parseR H lookup_length hdd dphys
  have mt := vt.val
  have mb := Near.trans h0 hl v2.val vb.val
  have st : (t.toBaseR fp).unit.scale = 1 := by rw [ut]; rfl
  have sb : (b.toBaseR fp).unit.scale = 1 := by rw [ub]; rfl
  rw [st, mul_one] at mt
  rw [sb, mul_one] at mb
  have tpos := Near.pos h0 hl D0 mt
  have hreg : sameReg (b.toBaseR fp) (t.toBaseR fp) = .ok () := if_pos (vb.reg.trans vt.reg.symm)
  have pht : (t.toBaseR fp).phys = (t.toBaseR fp).mag := by simp only [phys, st, vt.off, mul_one, add_zero]
  have phb : (b.toBaseR fp).phys = (b.toBaseR fp).mag := by simp only [phys, sb, vb.off, mul_one, add_zero]
  have n8 : 0 + 1 + 0 + 1 + (κ + 2) + (κ + 2) ≤ 2 * κ + 8 := by omega
  have hN0 : 0 ≤ ((2 * κ + 8 : ℕ) : ℝ) * u := mul_nonneg (Nat.cast_nonneg _) h0
  have hlt : (b.toBaseR fp).mag < (t.toBaseR fp).mag := by
    obtain ⟨a, a1, a2, ea⟩ := Near.mono h0 hl (m := κ + 4) (by omega) mb
    obtain ⟨c, c1', c2, ec⟩ := Near.mono h0 hl (m := κ + 4) (by omega) mt
    rw [ea, ec]
    have hB := bernoulli hl (κ + 4 + (κ + 4))
    rw [show κ + 4 + (κ + 4) = 2 * κ + 8 by ring] at hB
    have hB' : (19 : ℝ) / 20 ≤ (1 - u) ^ (κ + 4) * (1 - u) ^ (κ + 4) := by
      rw [← pow_add, show κ + 4 + (κ + 4) = 2 * κ + 8 by ring]; linarith
    have hA := Near.pow_bounds h0 hl (κ + 4)
    generalize (1 - u) ^ (κ + 4) = A at *
    have ha := hA.1.trans_le a1
    have h2 : f * (D / 2) * a ≤ D / 2 * a := by
      apply mul_le_mul_of_nonneg_right _ ha.le
      nlinarith
    refine h2.trans_lt ?_
    rw [show D / 2 * a = D * (a / 2) by ring]
    apply mul_lt_mul_of_pos_left _ D0
    have : a * A / 2 < c * A := by nlinarith
    have := lt_of_mul_lt_mul_right (show a / 2 * A < c * A by linarith) hA.1.le
    exact this
  have hge : (b.toBaseR fp).ge (t.toBaseR fp) = .ok false := by
    simp only [Quantity.ge, hreg, ok_bind, vb.dim, vt.dim, if_true, pht, phb]
    rw [decide_eq_false (not_le.mpr hlt)]
  have hr : blockageRatioR fp reg x (.quantity d) = .ok (fp.rnd (1 - fp.rnd (fp.rnd (1 -
      fp.rnd (fp.rnd (2 * (b.toBaseR fp).mag) / (t.toBaseR fp).mag)) ^ 2))) := by
    simp only [blockageRatioR, pt, pb, ct, cb, ok_bind, if_neg tpos.ne', hge]
    simp
  refine ⟨d, _, hd, nonneg_of_mul_nonneg_left dphys d.unit.pos, hr, ?_⟩
  have nb := Near.mul h0 hl (Near.refl u 2) mb
  have nz := H.round (Near.div h0 hl (H.round nb) mt)
  rw [show 2 * (f * (D / 2)) / D = f by field_simp] at nz
  have nz' := Near.mono h0 hl (m := 2 * κ + 8) (by omega) nz
  have hz := Near.bound h0 hl (by linarith) nz'
  rw [abs_of_nonneg f0] at hz
  generalize hNd : ((2 * κ + 8 : ℕ) : ℝ) * u = N at *
  have hz' : |fp.rnd (fp.rnd (2 * (b.toBaseR fp).mag) / (t.toBaseR fp).mag) - f| ≤ 1.1 * N := by
    refine hz.trans ?_
    have : N / (1 - N) ≤ 1.1 * N := by
      rw [div_le_iff₀ (by linarith)]; nlinarith
    calc _ ≤ 1.1 * N * f := mul_le_mul_of_nonneg_right this f0
      _ ≤ 1.1 * N * 1 := mul_le_mul_of_nonneg_left f1 (by linarith)
      _ = _ := mul_one _
  have hfin := round_trip_num H (Real.sqrt_nonneg (1 - br)) (Real.sqrt_le_one.mpr (by linarith)) hf hz' (by linarith)
    (by linarith) (by linarith)
  rw [Real.sq_sqrt (by linarith), sub_sub_cancel] at hfin
  refine hfin.trans ?_
  rw [← hNd]
  push_cast
  have : 0 ≤ (κ : ℝ) * u := mul_nonneg (Nat.cast_nonneg κ) h0
  nlinarith

/-- Double precision has the properties asked for: a 2 inch tube and a ratio of 0.43 give 0.43 back to `54 / 2^53`. -/
example (reg : Registry) : ∃ d y, blockageDiameterR FP.double reg (.quantity ⟨2, PUnit.inch, 7⟩) 0.43 = .ok d ∧
    0 ≤ d.mag ∧ blockageRatioR FP.double reg (.quantity ⟨2, PUnit.inch, 7⟩) (.quantity d) = .ok y ∧
    |y - 0.43| ≤ 54 * (1 / 2) ^ 53 := by
  obtain ⟨d, y, h1, h2, h3, h4⟩ := C98_round_trip (reg := reg) (x := .quantity ⟨2, PUnit.inch, 7⟩) (D := 2 * PUnit.inch.scale)
    (br := 0.43) FP.double_accurate FP.double_monotone
    (by change binRnd 53 1 = 1; simpa using binRnd_exact (p := 53) (k := 1) (j := 0) (by norm_num))
    (by norm_num) ⟨⟨rfl, by change 2 * PUnit.inch.scale + 0 = _; ring⟩, rfl⟩ (mul_pos two_pos PUnit.inch.pos) (by norm_num)
    (by norm_num)
  exact ⟨d, y, h1, h2, h3, h4.trans (by norm_num)⟩

/-- C98: the bound cannot be relative to the ratio.  Where `1 - br` rounds to 1 (in double precision: every positive
ratio up to `2^-54`) the computed diameter is 0, although the exact one is positive. -/
theorem C98_tiny_ratio_vanishes (M : fp.Monotone) (h1 : fp.rnd 1 = 1) (hr : fp.rnd (1 - br) = 1)
    (hx : DenotesM reg x Dim.length D) (D0 : 0 < D) (b0 : 0 < br) (b1 : br < 1) :
    (∃ d, blockageDiameterR fp reg x br = .ok d ∧ d.mag = 0) ∧
      ∃ d, blockageDiameter reg x (.num br) = .ok d ∧ 0 < d.mag := by
  obtain ⟨q, e, hq⟩ := parse_spec hx
  constructor
  · refine ⟨⟨0, q.unit, q.reg⟩, ?_, rfl⟩
    have o : noOffset q = .ok () := if_pos hq.off
    have o2 : ∀ z, noOffset (⟨z, q.unit, q.reg⟩ : Quantity) = .ok () := fun _ => if_pos hq.off
    simp only [blockageDiameterR, if_neg (not_not.mpr (⟨b0, b1⟩ : 0 < br ∧ br < 1)), e, ok_bind, check_len hq D0.le true,
      divNumR, scaleR, o, o2, hr, Real.sqrt_one, h1, sub_self, M.zero, zero_mul, if_neg (two_ne_zero (α := ℝ))]
  · obtain ⟨c1, e1, v1, -⟩ := divNum_spec (k := 2) (by norm_num) hq
    obtain ⟨c2, e2, v2, -⟩ := scale_spec (1 - Real.sqrt (1 - br)) v1
    refine ⟨c2, ?_, ?_⟩
    · simp only [blockageDiameter, ok_bind, if_neg (not_not.mpr (⟨b0, b1⟩ : 0 < br ∧ br < 1)), e, check_len hq D0.le true,
        e1, e2]
    · have := v2.val
      have h2 : 0 < (1 - Real.sqrt (1 - br)) * (D / 2) := mul_pos (one_sub_sqrt_pos b0) (by positivity)
      rw [← this] at h2
      exact (mul_pos_iff_of_pos_right c2.unit.pos).mp h2

theorem double_one_sub {br : ℝ} (b0 : 0 < br) (b1 : br ≤ (1 / 2) ^ 54) : FP.double.rnd (1 - br) = 1 := by
  change binRnd 53 (1 - br) = 1
  have hb : br ≤ 1 / 4 := b1.trans (by norm_num)
  have hx : 0 < 1 - br := by linarith
  have hl : Int.log 2 (1 - br) = -1 := by
    have l1 : (2 : ℝ) ^ Int.log 2 (1 - br) ≤ 1 - br := by
      have := Int.zpow_log_le_self (R := ℝ) (b := 2) (by norm_num) hx
      exact_mod_cast this
    have l2 : 1 - br < (2 : ℝ) ^ (Int.log 2 (1 - br) + 1) := by
      have := Int.lt_zpow_succ_log_self (R := ℝ) (b := 2) (by norm_num) (1 - br)
      exact_mod_cast this
    have k1 : Int.log 2 (1 - br) < 0 := by
      apply (zpow_lt_zpow_iff_right₀ (one_lt_two (α := ℝ))).mp
      rw [zpow_zero]; linarith
    have k2 : -1 < Int.log 2 (1 - br) + 1 := by
      apply (zpow_lt_zpow_iff_right₀ (one_lt_two (α := ℝ))).mp
      refine lt_of_le_of_lt ?_ l2
      norm_num; linarith
    omega
  have hr : round ((1 - br) * 2 ^ 53) = 2 ^ 53 := by
    rw [round_eq, Int.floor_eq_iff]
    have h1 : br * 2 ^ 53 ≤ 1 / 2 := by
      calc br * 2 ^ 53 ≤ (1 / 2) ^ 54 * 2 ^ 53 := mul_le_mul_of_nonneg_right b1 (by norm_num)
        _ = 1 / 2 := by norm_num
    have h2 : 0 < br * 2 ^ 53 := by positivity
    push_cast
    constructor
    · linarith
    · linarith
  rw [binRnd, if_pos hx, binPos, hl]
  have e : (2 : ℝ) ^ ((-1 : ℤ) + 1 - ((53 : ℕ) : ℤ)) = 1 / 2 ^ 53 := by norm_num
  rw [e, div_div_eq_mul_div, div_one, hr]
  norm_num

/-- In double precision: ratios up to `2^-54` in a 2 inch tube. -/
example (reg : Registry) {br : ℝ} (b0 : 0 < br) (b1 : br ≤ (1 / 2) ^ 54) :
    (∃ d, blockageDiameterR FP.double reg (.quantity ⟨2, PUnit.inch, 7⟩) br = .ok d ∧ d.mag = 0) ∧
      ∃ d, blockageDiameter reg (.quantity ⟨2, PUnit.inch, 7⟩) (.num br) = .ok d ∧ 0 < d.mag :=
  C98_tiny_ratio_vanishes (D := 2 * PUnit.inch.scale) FP.double_monotone
    (by change binRnd 53 1 = 1; simpa using binRnd_exact (p := 53) (k := 1) (j := 0) (by norm_num))
    (double_one_sub b0 b1) ⟨⟨rfl, by change 2 * PUnit.inch.scale + 0 = _; ring⟩, rfl⟩ (mul_pos two_pos PUnit.inch.pos) b0
    (b1.trans_lt (by norm_num))

end DDT

end Pypbomb
