/-
C135: is the initial pressure returned a maximum?  Every lower initial pressure safe, every higher one unsafe.  Not where the load
factor falls from 4 to 2 as the wave gets faster.
-/
import Verif.Props.SearchConverges
import Verif.Props.Scaling

namespace Pypbomb.Tube
open Quantity

variable {shock : Quantity → Py Shock} {dlfOf : Quantity → Py ℝ} {reg : Registry} {max : Quantity} {tol nu pm : ℝ} {maxIter : ℤ}
  {f : Found} {xi xo xE xr : QIn} {M : ℝ}

/-- At every initial pressure of at most `P` pascal (at which the shock calculation and the load factor succeed) the reflected pressure
times the load factor is at most `M`. -/
def SafeUpTo (shock : Quantity → Py Shock) (dlfOf : Quantity → Py ℝ) (M P : ℝ) : Prop :=
  ∀ p P' r s d, HasVal p Dim.pressure P' r → 0 < P' → P' ≤ P → shock p = .ok s → dlfOf s.cjSpeed = .ok d → s.reflectedP * d ≤ M

/-- At every initial pressure of at least `P` pascal the reflected pressure times the load factor is at least `M`. -/
def LoadedFrom (shock : Quantity → Py Shock) (dlfOf : Quantity → Py ℝ) (M P : ℝ) : Prop :=
  ∀ p P' r s d, HasVal p Dim.pressure P' r → P ≤ P' → shock p = .ok s → dlfOf s.cjSpeed = .ok d → M ≤ s.reflectedP * d

/-- Reflected pressures are positive, and the reflected pressure and the wave speed do not fall as the initial pressure rises. -/
def Rising (shock : Quantity → Py Shock) : Prop :=
  ∀ p p' P P' r r' s s', HasVal p Dim.pressure P r → HasVal p' Dim.pressure P' r' → 0 < P → P ≤ P' → shock p = .ok s →
    shock p' = .ok s' → 0 < s.reflectedP ∧ s.reflectedP ≤ s'.reflectedP ∧
      ∃ v v' k k', HasVal s.cjSpeed Dim.velocity v k ∧ HasVal s'.cjSpeed Dim.velocity v' k' ∧ v ≤ v'

/-- The load factors of a slower and a faster wave in the same tube. -/
theorem dlf_order {qv qv' : Quantity} {v v' d d' : ℝ} {k k' : ℕ} (h : HasVal qv Dim.velocity v k)
    (h' : HasVal qv' Dim.velocity v' k') (hle : v ≤ v')
    (e : dynamicLoadFactor xi xo (.quantity qv) xE xr nu pm = .ok d)
    (e' : dynamicLoadFactor xi xo (.quantity qv') xE xr nu pm = .ok d') :
    (d = 1 ∨ d = 2 ∨ d = 4) ∧ (d' = 1 ∨ d' = 2 ∨ d' = 4) ∧ (d' = 1 → d = 1) ∧ (d = 2 → d' = 2) := by
  have conv : ∀ {q x k}, HasVal q Dim.velocity x k → ∃ q', q.convert PUnit.meterPerSecond = .ok q' ∧ q'.mag = x := by
    intro q x k hq
    obtain ⟨q', e1, h1, u1⟩ := convert_spec (u := PUnit.meterPerSecond) hq rfl rfl
    refine ⟨q', e1, ?_⟩
    rw [← h1.phys, Quantity.phys, u1]
    simp [PUnit.meterPerSecond, PUnit.base]
  obtain ⟨c, ec, hc⟩ := conv h
  obtain ⟨c', ec', hc'⟩ := conv h'
  unfold dynamicLoadFactor at e e'
  simp only [bind_eq_ok] at e e'
  obtain ⟨i, hi, o, ho, w, hw, E, hE, r, hr, e⟩ := e
  obtain ⟨i', hi', o', ho', w', hw', E', hE', r', hr', e'⟩ := e'
  cases hi.symm.trans hi'
  cases ho.symm.trans ho'
  cases hE.symm.trans hE'
  cases hr.symm.trans hr'
  have ck : ∀ {q w : Quantity}, checked (.quantity q) "velocity" false = .ok w → w = q := by
    intro q w hq
    simp only [checked, bind_eq_ok, Except.ok.injEq] at hq
    obtain ⟨_, -, rfl⟩ := hq
    rfl
  cases ck hw
  cases ck hw'
  split at e
  · simp at e
  · rename_i hp
    rw [if_neg hp] at e'
    simp only [bind_eq_ok] at e e'
    obtain ⟨cr, h1, hi1, h2, hi2, h3, lo1, h4, lo2, h5, z, h6, e⟩ := e
    obtain ⟨cr', h1', hi1', h2', hi2', h3', lo1', h4', lo2', h5', z', h6', e'⟩ := e'
    cases h1.symm.trans h1'
    cases h2.symm.trans h2'
    cases h3.symm.trans h3'
    cases h4.symm.trans h4'
    cases h5.symm.trans h5'
    cases ec.symm.trans h6
    cases ec'.symm.trans h6'
    rw [hc] at e
    rw [hc'] at e'
    split at e <;> split at e' <;> (try split at e) <;> (try split at e') <;> simp only [Except.ok.injEq] at e e' <;>
      subst e <;> subst e' <;> refine ⟨by norm_num, by norm_num, ?_, ?_⟩ <;> intro hh <;> norm_num at hh <;>
      first | rfl | (exfalso; linarith)

/-- What is known of a pressure returned before the iterations ran out. -/
theorem found_load {useDlf : Bool} (m0 : 0 < max.mag)
    (h : maxInitialPressure reg shock dlfOf max useDlf tol maxIter "reflected" = .ok f) (hu : 1 ≤ f.updates)
    (hn : (f.updates : ℤ) < maxIter) :
    HasVal f.pressure Dim.pressure f.pressure.phys reg.id ∧ ∃ s, shock f.pressure = .ok s ∧
      (if useDlf = true then dlfOf s.cjSpeed = .ok f.dlf else f.dlf = 1) ∧
      (1 - |tol|) * max.mag ≤ s.reflectedP * f.dlf ∧ s.reflectedP * f.dlf ≤ (1 + |tol|) * max.mag := by
  obtain ⟨s, e, hd, hl⟩ := C134_otherwise_met_partial m0 h hu
  have hl := abs_le.mp (hl hn)
  rw [if_neg (by simp)] at hl
  obtain ⟨-, -, s0, dlf, e1, e2, hs⟩ := maxInitial_unfold h
  obtain ⟨u1, u2⟩ := search_unit _ _ _ _ _ _ _ hs
  have off : f.pressure.unit.offset = 0 := by rw [u1]; rfl
  refine ⟨⟨by rw [u1]; rfl, off, by simp [Quantity.phys, off], u2⟩, s, e, hd, by linarith, by linarith⟩

/-- C135, proved part: the answer depends on the load factor `d` at the returned pressure (`return_dlf=True` tells it), for a gas whose
reflected pressure and wave speed do not fall as the initial pressure rises, and a search that stopped before its iterations ran out.
With `d = 1` every lower initial pressure is safe and every higher one loads the tube to the limit; with `d = 4` every lower one is safe;
with `d = 2` every higher one loads the tube to the limit, and no lower one to more than twice the limit (all up to the tolerance). -/
theorem C135_by_factor_partial (hr : Rising shock) (m0 : 0 < max.mag)
    (h : maxInitialPressure reg shock (fun v => dynamicLoadFactor xi xo (.quantity v) xE xr nu pm) max true tol maxIter "reflected" =
      .ok f) (hu : 1 ≤ f.updates) (hn : (f.updates : ℤ) < maxIter) (hP : 0 < f.pressure.phys) :
    (f.dlf = 1 ∨ f.dlf = 2 ∨ f.dlf = 4) ∧
    (f.dlf = 1 ∨ f.dlf = 4 → SafeUpTo shock (fun v => dynamicLoadFactor xi xo (.quantity v) xE xr nu pm)
      ((1 + |tol|) * max.mag) f.pressure.phys) ∧
    (f.dlf = 1 ∨ f.dlf = 2 → LoadedFrom shock (fun v => dynamicLoadFactor xi xo (.quantity v) xE xr nu pm)
      ((1 - |tol|) * max.mag) f.pressure.phys) ∧
    (f.dlf = 2 → SafeUpTo shock (fun v => dynamicLoadFactor xi xo (.quantity v) xE xr nu pm)
      (2 * ((1 + |tol|) * max.mag)) f.pressure.phys) := by
  obtain ⟨hv, s0, e0, hd0, hlo, hhi⟩ := found_load m0 h hu hn
  rw [if_pos rfl] at hd0
  obtain ⟨r0, -, v0, v0', k, k', hv1, hv2, -⟩ := hr _ _ _ _ _ _ _ _ hv hv hP le_rfl e0 e0
  obtain ⟨hf, -, -, -⟩ := dlf_order hv1 hv1 le_rfl hd0 hd0
  refine ⟨hf, fun hc => ?_, fun hc => ?_, fun hc => ?_⟩
  · intro p P' r s d hp P0 hle e hd
    obtain ⟨r1, r2, v, v', k, k', w1, w2, w3⟩ := hr _ _ _ _ _ _ _ _ hp hv P0 hle e e0
    obtain ⟨d1, -, d3, -⟩ := dlf_order w1 w2 w3 hd hd0
    refine le_trans ?_ hhi
    refine mul_le_mul r2 ?_ ?_ r0.le
    · rcases hc with hc | hc
      · rw [d3 hc, hc]
      · rw [hc]; rcases d1 with d1 | d1 | d1 <;> rw [d1] <;> norm_num
    · rcases d1 with d1 | d1 | d1 <;> rw [d1] <;> norm_num
  · intro p P' r s d hp hle e hd
    obtain ⟨r1, r2, v, v', k, k', w1, w2, w3⟩ := hr _ _ _ _ _ _ _ _ hv hp hP hle e0 e
    obtain ⟨-, d2, -, d4⟩ := dlf_order w1 w2 w3 hd0 hd
    refine le_trans hlo ?_
    refine mul_le_mul r2 ?_ ?_ (r0.le.trans r2)
    · rcases hc with hc | hc
      · rw [hc]; rcases d2 with d2 | d2 | d2 <;> rw [d2] <;> norm_num
      · rw [d4 hc, hc]
    · rcases hf with d1 | d1 | d1 <;> rw [d1] <;> norm_num
  · intro p P' r s d hp P0 hle e hd
    obtain ⟨r1, r2, v, v', k, k', w1, w2, w3⟩ := hr _ _ _ _ _ _ _ _ hp hv P0 hle e e0
    obtain ⟨d1, -, -, -⟩ := dlf_order w1 w2 w3 hd hd0
    rw [hc] at hhi
    have : d ≤ 4 := by rcases d1 with d1 | d1 | d1 <;> rw [d1] <;> norm_num
    nlinarith

/-- C135, proved part: without the load factor the returned pressure is a maximum. -/
theorem C135_no_factor_partial (hr : Rising shock) (m0 : 0 < max.mag)
    (h : maxInitialPressure reg shock dlfOf max false tol maxIter "reflected" = .ok f) (hu : 1 ≤ f.updates)
    (hn : (f.updates : ℤ) < maxIter) (hP : 0 < f.pressure.phys) :
    SafeUpTo shock (fun _ => .ok 1) ((1 + |tol|) * max.mag) f.pressure.phys ∧
    LoadedFrom shock (fun _ => .ok 1) ((1 - |tol|) * max.mag) f.pressure.phys := by
  obtain ⟨hv, s0, e0, hd0, hlo, hhi⟩ := found_load m0 h hu hn
  rw [if_neg (by simp)] at hd0
  rw [hd0, mul_one] at hlo hhi
  constructor
  · intro p P' r s d hp P0 hle e hd
    obtain ⟨-, r2, -⟩ := hr _ _ _ _ _ _ _ _ hp hv P0 hle e e0
    cases hd
    linarith
  · intro p P' r s d hp hle e hd
    obtain ⟨-, r2, -⟩ := hr _ _ _ _ _ _ _ _ hv hp hP hle e0 e
    cases hd
    linarith

/-! ### A load factor that falls as the wave gets faster -/

/-- Reflected pressure `c` times the initial pressure, and a load factor of `b` for initial pressures up to `q`, of the smaller `a`
above: the wave speed rises with the pressure and leaves the resonant band at `q`. -/
structure Falls (shock : Quantity → Py Shock) (dlfOf : Quantity → Py ℝ) (c a b q : ℝ) : Prop where
  run : ∀ p P r, HasVal p Dim.pressure P r → 0 < P →
    ∃ s, shock p = .ok s ∧ s.reflectedP = c * P ∧ dlfOf s.cjSpeed = .ok (if P ≤ q then b else a)
  c0 : 0 < c
  a0 : 0 < a
  ab : a < b

variable {c a b q : ℝ}

/-- One update reaches a pressure whose load factor is that of the first guess. -/
theorem falls_run (hg : Falls shock dlfOf c a b q) (m0 : 0 < max.mag) (hit : 1 ≤ maxIter)
    (hne : |tol| < |(if 101325 ≤ q then b else a) / max.mag - 1|)
    (hst : (max.mag / ((if 101325 ≤ q then b else a) * c) ≤ q) = ((101325 : ℝ) ≤ q)) :
    ∃ f, maxInitialPressure reg shock dlfOf max true tol maxIter "reflected" = .ok f ∧ f.updates = 1 ∧ f.error = 0 ∧
      f.dlf = (if 101325 ≤ q then b else a) ∧
      HasVal f.pressure Dim.pressure (max.mag / ((if 101325 ≤ q then b else a) * c)) reg.id := by
  have c0 := hg.c0
  have a0 := hg.a0
  have b0 : 0 < b := a0.trans hg.ab
  obtain ⟨s0, hs0, hr0, hd0⟩ := hg.run _ _ _ (start_val reg) (by norm_num)
  obtain ⟨n, hn⟩ : ∃ n, maxIter.toNat = n + 1 := ⟨maxIter.toNat - 1, by omega⟩
  have d0p : 0 < (if 101325 ≤ q then b else a) := by split <;> assumption
  generalize hd : (if 101325 ≤ q then b else a) = d at *
  obtain ⟨p1, e1, g1, -⟩ := scale_spec max.mag (start_val reg)
  obtain ⟨p2, e2, g2, -⟩ := divNum_spec (k := d * s0.reflectedP) (by rw [hr0]; positivity) g1
  have g2' : HasVal p2 Dim.pressure (max.mag / (d * c)) reg.id := g2.cast rfl (by rw [hr0]; field_simp)
  obtain ⟨s2, e3, b1, b2⟩ := hg.run p2 _ _ g2' (by positivity)
  simp only [hst, hd] at b2
  have st := search_step (state := "reflected") (n := n) (k := 0) (ev := [start reg]) (dlfOf := dlfOf) (useDlf := true)
    hne e1 e2 e3 b2 m0.ne'
  rw [show s2.selected "reflected" = s2.reflectedP by simp [Shock.selected], b1,
    show (c * (max.mag / (d * c)) * d - max.mag) / max.mag = 0 by field_simp; ring] at st
  have fin : ∀ n, search shock dlfOf true "reflected" max.mag |tol| n p2 s2 d 0 (0 + 1) ([start reg] ++ [p2]) =
      .ok ⟨p2, d, 0, 0 + 1, [start reg] ++ [p2]⟩ := by
    intro n
    cases n with
    | zero => rfl
    | succ n => rw [search, if_neg (by rw [abs_zero]; exact not_lt.mpr (abs_nonneg _))]
  rw [fin] at st
  refine ⟨⟨p2, d, 0, 0 + 1, [start reg] ++ [p2]⟩, ?_, rfl, rfl, rfl, g2'⟩
  unfold maxInitialPressure
  rw [if_neg (by simp)]
  have hs0' : shock ⟨1, PUnit.atm, reg.id⟩ = .ok s0 := hs0
  simp only [hs0', hd0, ok_bind, if_neg m0.ne', one_mul, hn]
  exact st

/-- C135 is false of the code: where the load factor falls from `b` to `a` at `q`, with `q` below 1 atm, the search returns, with no error
at all, the pressure right for the smaller factor, although every pressure between the one right for `b` and `q`, all lower than the one
returned, loads the tube beyond the limit. -/
theorem C135_lower_violated (hg : Falls shock dlfOf c a b q) (m0 : 0 < max.mag) (hit : 1 ≤ maxIter) (hq : q < 101325)
    (h2 : q < max.mag / (a * c)) (hne : |tol| < |a / max.mag - 1|) :
    ∃ f, maxInitialPressure reg shock dlfOf max true tol maxIter "reflected" = .ok f ∧ f.updates = 1 ∧ f.error = 0 ∧
      HasVal f.pressure Dim.pressure (max.mag / (a * c)) reg.id ∧
      ∀ p P r, HasVal p Dim.pressure P r → max.mag / (b * c) < P → P ≤ q → P < max.mag / (a * c) ∧
        ∃ s, shock p = .ok s ∧ dlfOf s.cjSpeed = .ok b ∧ max.mag < s.reflectedP * b := by
  have c0 := hg.c0
  have b0 : 0 < b := hg.a0.trans hg.ab
  have hif : (if (101325 : ℝ) ≤ q then b else a) = a := if_neg (not_le.mpr hq)
  obtain ⟨f, e, h1, h3, -, h4⟩ := falls_run (reg := reg) (tol := tol) hg m0 hit (by rw [hif]; exact hne) (by
    rw [hif]
    exact propext ⟨fun h => absurd h (not_le.mpr h2), fun h => absurd h (not_le.mpr hq)⟩)
  rw [hif] at h4
  refine ⟨f, e, h1, h3, h4, fun p P r hp hb hPq => ⟨lt_of_le_of_lt hPq h2, ?_⟩⟩
  have P0 : 0 < P := lt_trans (by positivity) hb
  obtain ⟨s, es, er, ed⟩ := hg.run p P r hp P0
  rw [if_pos hPq] at ed
  refine ⟨s, es, ed, ?_⟩
  rw [div_lt_iff₀ (by positivity)] at hb
  rw [er]
  linarith

/-- C135 is false of the code in the other direction, too: with `q` at or above 1 atm and a limit that is reached in the resonant band,
the search returns the pressure right for the band, although a higher one, beyond the band, also loads the tube to exactly the limit. -/
theorem C135_higher_violated (hg : Falls shock dlfOf c a b q) (m0 : 0 < max.mag) (hit : 1 ≤ maxIter) (hq : 101325 ≤ q)
    (h1 : max.mag / (b * c) ≤ q) (h2 : q < max.mag / (a * c)) (hne : |tol| < |b / max.mag - 1|) :
    ∃ f, maxInitialPressure reg shock dlfOf max true tol maxIter "reflected" = .ok f ∧ f.updates = 1 ∧ f.error = 0 ∧
      HasVal f.pressure Dim.pressure (max.mag / (b * c)) reg.id ∧ max.mag / (b * c) < max.mag / (a * c) ∧
      ∀ p r, HasVal p Dim.pressure (max.mag / (a * c)) r →
        ∃ s, shock p = .ok s ∧ dlfOf s.cjSpeed = .ok a ∧ s.reflectedP * a = max.mag := by
  have c0 := hg.c0
  have a0 := hg.a0
  have b0 : 0 < b := hg.a0.trans hg.ab
  have hif : (if (101325 : ℝ) ≤ q then b else a) = b := if_pos hq
  obtain ⟨f, e, h4, h3, -, h5⟩ := falls_run (reg := reg) (tol := tol) hg m0 hit (by rw [hif]; exact hne) (by
    rw [hif]
    exact propext ⟨fun _ => hq, fun _ => h1⟩)
  rw [hif] at h5
  refine ⟨f, e, h4, h3, h5, lt_of_le_of_lt h1 h2, fun p r hp => ?_⟩
  obtain ⟨s, es, er, ed⟩ := hg.run p _ r hp (by positivity)
  rw [if_neg (not_le.mpr h2)] at ed
  exact ⟨s, es, ed, by rw [er]; field_simp⟩

/-! ### A rising gas in a real tube -/

/-- A gas whose wave speed rises with the initial pressure, by a hundredth of the tube's critical velocity per `q`, and reaches the upper
edge of the resonant band of the 4 x 4.5 inch steel tube at `q`. -/
noncomputable def risingShock (q : ℝ) (p : Quantity) : Py Shock :=
  .ok ⟨⟨Vcrit 0.1016 0.1143 200000000000 7800 0.28 * (1.09 + 0.01 * (p.phys / q)), PUnit.meterPerSecond, 0⟩, 16 * p.phys, 40 * p.phys⟩

/-- The load factor of the 4 x 4.5 inch steel tube. -/
noncomputable def steelDlf (v : Quantity) : Py ℝ :=
  dynamicLoadFactor (.quantity ⟨4, PUnit.inch, 0⟩) (.quantity ⟨4.5, PUnit.inch, 0⟩) (.quantity v)
    (.quantity ⟨200, PUnit.gigapascal, 0⟩) (.quantity ⟨7.8, PUnit.gramPerCC, 0⟩) 0.28 0.1

theorem Vcrit_pos : 0 < Vcrit 0.1016 0.1143 200000000000 7800 0.28 := by
  obtain ⟨h0, h4⟩ := C32_Vcrit_fourth_power (i := 0.1016) (o := 0.1143) (E := 200000000000) (rho := 7800) (nu := 0.28) (by norm_num)
  refine lt_of_le_of_ne h0 fun h => ?_
  rw [← h] at h4
  norm_num at h4

theorem steel_args (v : ℝ) : DlfArgs ⟨4, PUnit.inch, 0⟩ ⟨4.5, PUnit.inch, 0⟩ ⟨v, PUnit.meterPerSecond, 0⟩
    ⟨200, PUnit.gigapascal, 0⟩ ⟨7.8, PUnit.gramPerCC, 0⟩ 0.1016 0.1143 v 200000000000 7800 0.28 0 0 := by
  refine ⟨⟨rfl, rfl, ?_, rfl⟩, ⟨rfl, rfl, ?_, rfl⟩, ⟨rfl, rfl, ?_, rfl⟩, ⟨rfl, rfl, ?_, rfl⟩,
    ⟨rfl, rfl, ?_, rfl⟩, ?_, ?_, ?_, ?_, ?_, ?_⟩ <;>
  norm_num [PUnit.inch, PUnit.meterPerSecond, PUnit.base, PUnit.gigapascal, PUnit.gramPerCC]

theorem rising_falls {q : ℝ} (q0 : 0 < q) : Falls (risingShock q) steelDlf 40 2 4 q := by
  refine ⟨fun p P r hp P0 => ⟨_, rfl, by simp [hp.phys], ?_⟩, by norm_num, by norm_num, by norm_num⟩
  have hV := Vcrit_pos
  rw [hp.phys]
  have hPq : 0 < P / q := by positivity
  simp only [steelDlf]
  split
  · rename_i h
    have h1 : P / q ≤ 1 := (div_le_one q0).mpr h
    obtain ⟨f, hf, -, -, h4, -⟩ := C32_classification (steel_args _) (pm := 0.1) (by norm_num)
    rw [hf, h4.mpr ⟨by nlinarith, by nlinarith⟩]
  · rename_i h
    have h1 : 1 < P / q := (one_lt_div q0).mpr (not_le.mp h)
    obtain ⟨f, hf, -, h2, -, -⟩ := C32_classification (steel_args _) (pm := 0.1) (by norm_num)
    rw [hf, h2.mpr (by nlinarith)]

/-- The hypothesis of the proved parts is met. -/
theorem rising_rises {q : ℝ} (q0 : 0 < q) : Rising (risingShock q) := by
  intro p p' P P' r r' s s' hp hp' P0 hle e e'
  simp only [risingShock, Except.ok.injEq] at e e'
  subst e
  subst e'
  have hV := Vcrit_pos
  have := div_le_div_of_nonneg_right hle q0.le
  refine ⟨by simp only [hp.phys]; positivity, by simp only [hp.phys, hp'.phys]; linarith, _, _, 0, 0, ⟨rfl, rfl, rfl, rfl⟩,
    ⟨rfl, rfl, rfl, rfl⟩, ?_⟩
  simp only [hp.phys, hp'.phys, PUnit.meterPerSecond, PUnit.base]
  nlinarith

/-- C135: 7.6 MPa on that tube, band edge at 90 kPa: the search returns 95 kPa, with the default settings and without an error; at 90 kPa
the same detonation loads the tube to 14.4 MPa. -/
theorem C135_lower_doubles_violated (reg : Registry) :
    ∃ f, maxInitialPressure reg (risingShock 90000) steelDlf ⟨7600000, PUnit.pascal, 0⟩ true 0.0001 500 "reflected" = .ok f ∧
      f.error = 0 ∧ HasVal f.pressure Dim.pressure 95000 reg.id ∧
      ∃ s, risingShock 90000 ⟨90000, PUnit.pascal, reg.id⟩ = .ok s ∧ steelDlf s.cjSpeed = .ok 4 ∧ s.reflectedP * 4 = 14400000 := by
  obtain ⟨f, e, -, h3, h4, -⟩ := C135_lower_violated (reg := reg) (max := ⟨7600000, PUnit.pascal, 0⟩) (tol := 0.0001)
    (maxIter := 500) (rising_falls (q := 90000) (by norm_num)) (by norm_num) (by norm_num) (by norm_num) (by norm_num)
    (by norm_num [abs_lt, lt_abs])
  obtain ⟨s, es, er, ed⟩ := (rising_falls (q := 90000) (by norm_num)).run ⟨90000, PUnit.pascal, reg.id⟩ 90000 reg.id
    ⟨rfl, rfl, by norm_num [PUnit.pascal, PUnit.base], rfl⟩ (by norm_num)
  refine ⟨f, e, h3, h4.cast rfl (by norm_num), s, es, ?_, ?_⟩
  · rw [ed, if_pos le_rfl]
  · rw [er]; norm_num

/-- C135: 16.2 MPa on that tube, band edge at 150 kPa: the search returns 1 atm, although 2 atm load the tube to the same 16.2 MPa. -/
example (reg : Registry) : ∃ f, maxInitialPressure reg (risingShock 150000) steelDlf ⟨16212000, PUnit.pascal, 0⟩ true 0.0001 500
    "reflected" = .ok f ∧ HasVal f.pressure Dim.pressure 101325 reg.id ∧
    ∃ s, risingShock 150000 ⟨2, PUnit.atm, reg.id⟩ = .ok s ∧ steelDlf s.cjSpeed = .ok 2 ∧ s.reflectedP * 2 = 16212000 := by
  obtain ⟨f, e, -, -, h4, -, h5⟩ := C135_higher_violated (reg := reg) (max := ⟨16212000, PUnit.pascal, 0⟩) (tol := 0.0001)
    (maxIter := 500) (rising_falls (q := 150000) (by norm_num)) (by norm_num) (by norm_num) (by norm_num) (by norm_num) (by norm_num)
    (by norm_num [abs_lt, lt_abs])
  obtain ⟨s, es, ed, er⟩ := h5 ⟨2, PUnit.atm, reg.id⟩ reg.id ⟨rfl, rfl, by norm_num [PUnit.atm], rfl⟩
  exact ⟨f, e, h4.cast rfl (by norm_num), s, es, ed, er⟩

/-- The proved parts apply to the searches above: factor 4 at 150 kPa band edge, so every lower pressure is safe. -/
example (reg : Registry) : ∃ f, maxInitialPressure reg (risingShock 150000) steelDlf ⟨16212000, PUnit.pascal, 0⟩ true 0.0001 500
    "reflected" = .ok f ∧ SafeUpTo (risingShock 150000) steelDlf ((1 + |0.0001|) * 16212000) f.pressure.phys := by
  obtain ⟨f, e, hu, -, hd, h4⟩ := falls_run (reg := reg) (max := ⟨16212000, PUnit.pascal, 0⟩) (tol := 0.0001)
    (maxIter := 500) (rising_falls (q := 150000) (by norm_num)) (by norm_num) (by norm_num) (by norm_num [abs_lt, lt_abs])
    (by norm_num)
  refine ⟨f, e, (C135_by_factor_partial (rising_rises (by norm_num)) (by norm_num) e (by omega) (by omega) ?_).2.1 (.inr ?_)⟩
  · rw [h4.phys]; norm_num
  · rw [hd]; norm_num

/-! ### With the gas in place -/

section gas
open SD
variable {ct : Cantera} {collect : Collect} {qT : Quantity} {species : ct.Species} {mechanism : String}

/-- C135, proved part, of `Tube.calculate_max_initial_pressure` with its shock calculation in place. -/
theorem C135_in_place_partial (hr : Rising (gasShock ct collect reg qT species mechanism)) (m0 : 0 < max.mag)
    (h : initialPressureSearch ct collect reg xi xo qT species mechanism max xE xr nu pm true tol maxIter "reflected" = .ok f)
    (hu : 1 ≤ f.updates) (hn : (f.updates : ℤ) < maxIter) (hP : 0 < f.pressure.phys) :
    (f.dlf = 1 ∨ f.dlf = 2 ∨ f.dlf = 4) ∧
    (f.dlf = 1 ∨ f.dlf = 4 → SafeUpTo (gasShock ct collect reg qT species mechanism)
      (fun v => dynamicLoadFactor xi xo (.quantity v) xE xr nu pm) ((1 + |tol|) * max.mag) f.pressure.phys) ∧
    (f.dlf = 1 ∨ f.dlf = 2 → LoadedFrom (gasShock ct collect reg qT species mechanism)
      (fun v => dynamicLoadFactor xi xo (.quantity v) xE xr nu pm) ((1 - |tol|) * max.mag) f.pressure.phys) ∧
    (f.dlf = 2 → SafeUpTo (gasShock ct collect reg qT species mechanism)
      (fun v => dynamicLoadFactor xi xo (.quantity v) xE xr nu pm) (2 * ((1 + |tol|) * max.mag)) f.pressure.phys) :=
  C135_by_factor_partial hr m0 h hu hn hP

/-- A gas whose equilibrium does not shift with the pressure: the reflected pressure is proportional to the initial pressure. -/
theorem pressureFree_shock {S : ℝ → ct.Gas → ct.Gas → Prop} (H : ∀ k, 0 < k → PressureFree ct k (S k)) {T : ℝ} {one : ShockState ct}
    (hT : Denotes reg (.quantity qT) Dim.temperature T)
    (h1 : reflectedShockState ct collect reg qT ⟨1, PUnit.atm, reg.id⟩ species mechanism = .ok one)
    (hhot : 0.2 * ct.T one.cjState * (ct.P one.cjState + 0.8 * ct.density one.cjState * one.cjSpeed.mag ^ 2) /
      ct.P one.cjState < 10 ^ 7) {p : Quantity} {P : ℝ} {r : ℕ} (hp : HasVal p Dim.pressure P r) (P0 : 0 < P) {s : Shock}
    (e : gasShock ct collect reg qT species mechanism p = .ok s) :
    s.cjSpeed = one.cjSpeed ∧ s.reflectedP = ct.P one.reflectedState / 101325 * P := by
  have h1atm : Denotes reg (.quantity ⟨1, PUnit.atm, reg.id⟩) Dim.pressure 101325 := ⟨rfl, by norm_num [PUnit.atm]⟩
  have hk : 0 < P / 101325 := by positivity
  obtain ⟨o, e1, o1, -, -, -, -, o4⟩ := C94_reflected_shock (H _ hk) hk hT h1atm
    (qP' := p) (by rw [div_mul_cancel₀ _ (by norm_num)]; exact ⟨hp.dim, hp.phys⟩) h1 hhot
  obtain ⟨o', e2, s1, -, s3⟩ := gasShock_ok e
  cases e1.symm.trans e2
  exact ⟨s1.trans o1, by rw [s3, o4]; ring⟩

/-- Such a gas meets the hypothesis of C135's proved parts. -/
theorem pressureFree_rises {S : ℝ → ct.Gas → ct.Gas → Prop} (H : ∀ k, 0 < k → PressureFree ct k (S k)) {T : ℝ} {one : ShockState ct}
    (hT : Denotes reg (.quantity qT) Dim.temperature T)
    (h1 : reflectedShockState ct collect reg qT ⟨1, PUnit.atm, reg.id⟩ species mechanism = .ok one)
    (hhot : 0.2 * ct.T one.cjState * (ct.P one.cjState + 0.8 * ct.density one.cjState * one.cjSpeed.mag ^ 2) /
      ct.P one.cjState < 10 ^ 7) (p3 : 0 < ct.P one.reflectedState) :
    Rising (gasShock ct collect reg qT species mechanism) := by
  intro p p' P P' r r' s s' hp hp' P0 hle e e'
  obtain ⟨a1, a2⟩ := pressureFree_shock H hT h1 hhot hp P0 e
  obtain ⟨b1, b2⟩ := pressureFree_shock H hT h1 hhot hp' (P0.trans_le hle) e'
  obtain ⟨D, hD⟩ := shock_speed_unit h1
  refine ⟨by rw [a2]; positivity, ?_, D, D, reg.id, reg.id, by rw [a1]; exact hD, by rw [b1]; exact hD, le_rfl⟩
  rw [a2, b2]
  have : 0 ≤ ct.P one.reflectedState / 101325 := by positivity
  exact mul_le_mul_of_nonneg_left hle this

/-- C135, proved part: in a gas whose equilibrium does not shift with the pressure the returned pressure is a maximum whatever the load
factor: every lower initial pressure is safe, every higher one loads the tube to the limit. -/
theorem C135_pressure_free_partial {S : ℝ → ct.Gas → ct.Gas → Prop} (H : ∀ k, 0 < k → PressureFree ct k (S k)) {T : ℝ}
    {one : ShockState ct} (hT : Denotes reg (.quantity qT) Dim.temperature T)
    (h1 : reflectedShockState ct collect reg qT ⟨1, PUnit.atm, reg.id⟩ species mechanism = .ok one)
    (hhot : 0.2 * ct.T one.cjState * (ct.P one.cjState + 0.8 * ct.density one.cjState * one.cjSpeed.mag ^ 2) /
      ct.P one.cjState < 10 ^ 7) (p3 : 0 < ct.P one.reflectedState) (m0 : 0 < max.mag)
    (h : initialPressureSearch ct collect reg xi xo qT species mechanism max xE xr nu pm true tol maxIter "reflected" = .ok f)
    (hu : 1 ≤ f.updates) (hn : (f.updates : ℤ) < maxIter) (hP : 0 < f.pressure.phys) :
    SafeUpTo (gasShock ct collect reg qT species mechanism) (fun v => dynamicLoadFactor xi xo (.quantity v) xE xr nu pm)
      ((1 + |tol|) * max.mag) f.pressure.phys ∧
    LoadedFrom (gasShock ct collect reg qT species mechanism) (fun v => dynamicLoadFactor xi xo (.quantity v) xE xr nu pm)
      ((1 - |tol|) * max.mag) f.pressure.phys := by
  have hr := pressureFree_rises H hT h1 hhot p3
  obtain ⟨hv, s0, e0, hd0, hlo, hhi⟩ := found_load m0 h hu hn
  rw [if_pos rfl] at hd0
  obtain ⟨a1, -⟩ := pressureFree_shock H hT h1 hhot hv hP e0
  obtain ⟨hf, -⟩ := C135_in_place_partial hr m0 h hu hn hP
  have f0 : 0 ≤ f.dlf := by rcases hf with d | d | d <;> rw [d] <;> norm_num
  constructor
  · intro p P' r s d hp P0 hle e hd
    obtain ⟨b1, -⟩ := pressureFree_shock H hT h1 hhot hp P0 e
    obtain ⟨-, r2, -⟩ := hr _ _ _ _ _ _ _ _ hp hv P0 hle e e0
    rw [b1, ← a1] at hd
    cases hd0.symm.trans hd
    exact (mul_le_mul_of_nonneg_right r2 f0).trans hhi
  · intro p P' r s d hp hle e hd
    obtain ⟨b1, -⟩ := pressureFree_shock H hT h1 hhot hp (hP.trans_le hle) e
    obtain ⟨-, r2, -⟩ := hr _ _ _ _ _ _ _ _ hv hp hP hle e0 e
    rw [b1, ← a1] at hd
    cases hd0.symm.trans hd
    exact hlo.trans (mul_le_mul_of_nonneg_right r2 f0)

/-- The gas of C94 in the 4 x 4.5 inch steel tube, 15 MPa: the theorem applies. -/
example {mechanism : String} : ∃ f, initialPressureSearch memGas serial reg (.quantity ⟨4, PUnit.inch, 0⟩)
      (.quantity ⟨4.5, PUnit.inch, 0⟩) ⟨20, PUnit.degC, 0⟩ () mechanism ⟨15000000, PUnit.pascal, 0⟩
      (.quantity ⟨200, PUnit.gigapascal, 0⟩) (.quantity ⟨7.8, PUnit.gramPerCC, 0⟩) 0.28 0.1 true 0.0001 500 "reflected" = .ok f ∧
    SafeUpTo (gasShock memGas serial reg ⟨20, PUnit.degC, 0⟩ () mechanism) steelDlf ((1 + |0.0001|) * 15000000) f.pressure.phys := by
  obtain ⟨one, h1, h2, h3, h4, h5⟩ := memGas_shock (reg := reg) (mechanism := mechanism)
  have H := fun k (hk : (0 : ℝ) < k) => memGas_pressureFree hk
  have h5' : 0 < memGas.P one.reflectedState := by rw [h5]; norm_num
  have hT : Denotes reg (.quantity ⟨20, PUnit.degC, 0⟩) Dim.temperature 293.15 := ⟨rfl, by norm_num [PUnit.degC]⟩
  have hprop : Proportional (gasShock memGas serial reg ⟨20, PUnit.degC, 0⟩ () mechanism) steelDlf
      (memGas.P one.reflectedState / 101325) (memGas.P one.cjState / 101325) 2 := by
    refine ⟨fun p P r hp P0 => ?_, by positivity, by positivity, by norm_num⟩
    have hk : 0 < P / 101325 := by positivity
    obtain ⟨o, e, o1, -, -, o3, -, o4⟩ := C94_reflected_shock (H _ hk) hk hT
      (qP := ⟨1, PUnit.atm, reg.id⟩) (P := 101325) (reg' := reg) ⟨rfl, by norm_num [PUnit.atm]⟩
      (qP' := p) (by rw [div_mul_cancel₀ _ (by norm_num)]; exact ⟨hp.dim, hp.phys⟩) h1 h3
    refine ⟨⟨o.cjSpeed, memGas.P o.cjState, memGas.P o.reflectedState⟩, ?_, ?_, ?_, ?_⟩
    · unfold gasShock; rw [e]; rfl
    · simp only [o4]; ring
    · simp only [o3]; ring
    · simp only [o1, h2]; exact ex_dlf
  obtain ⟨f, hf, f1, f2, f3, f4, -⟩ := C36_exact_for_proportional_gas (reg := reg) (max := ⟨15000000, PUnit.pascal, 0⟩) (tol := 0.0001)
    (maxIter := 500) hprop (by norm_num) (by norm_num) (by norm_num [abs_lt, lt_abs])
  exact ⟨f, hf, (C135_pressure_free_partial H hT h1 h3 h5' (by norm_num) hf (by omega) (by omega) (by rw [f4.phys]; positivity)).1⟩

end gas

end Pypbomb.Tube
