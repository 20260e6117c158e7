/-
Properties C32-C40: dynamic load factor, maximum pressure and the initial-pressure search.
-/
import Verif.Lemmas.Tube

namespace Pypbomb.Tube
open Quantity

variable {reg : Registry} {qi qo qE qr qv : Quantity} {i o E rho v nu pm pm' : ℝ} {r r' : ℕ}

/-! ### C32, C33: dynamic load factor -/

/-- Shepherd's critical velocity of a tube with inner/outer diameter `i`/`o` (thickness
`h = (o-i)/2`, mean radius `R = (o+i)/4`), all SI. -/
noncomputable def Vcrit (i o E rho nu : ℝ) : ℝ :=
  ((E ^ 2 * ((o - i) / 2) ^ 2) / (3 * rho ^ 2 * ((o + i) / 4) ^ 2 * (1 - nu ^ 2))) ^ ((1 : ℝ) / 4)

/-- Well-formed arguments of `dynamic_load_factor`: quantities in any units (the wave speed possibly of
another registry), with physical values `i, o, v, E, rho`. -/
structure DlfArgs (qi qo qv qE qr : Quantity) (i o v E rho nu : ℝ) (r r' : ℕ) : Prop where
  hi : HasVal qi Dim.length i r
  ho : HasVal qo Dim.length o r
  hv : HasVal qv Dim.velocity v r'
  hE : HasVal qE Dim.pressure E r
  hr : HasVal qr Dim.density rho r
  i0 : 0 ≤ i
  o0 : 0 ≤ o
  s0 : 0 < o + i
  E0 : 0 ≤ E
  rho0 : 0 < rho
  nu1 : nu ^ 2 < 1

theorem crit4_root (i o E rho nu : ℝ) :
    crit4 i o E rho nu ^ (((1 / 4 : ℚ)) : ℝ) = Vcrit i o E rho nu := by
  unfold crit4 Vcrit
  rw [mul_comm (1 - nu ^ 2)]
  norm_num

/-- C32: the factor is 1 below `(1-d) Vcrit`, 2 above `(1+d) Vcrit` and 4 in the closed band between,
for arguments in any units. -/
theorem C32_classification (h : DlfArgs qi qo qv qE qr i o v E rho nu r r') (hpm : 0 < pm ∧ pm < 1) :
    ∃ f, dynamicLoadFactor (.quantity qi) (.quantity qo) (.quantity qv) (.quantity qE) (.quantity qr)
        nu pm = .ok f ∧
      (f = 1 ↔ v < (1 - pm) * Vcrit i o E rho nu) ∧
      (f = 2 ↔ (1 + pm) * Vcrit i o E rho nu < v) ∧
      (f = 4 ↔ (1 - pm) * Vcrit i o E rho nu ≤ v ∧ v ≤ (1 + pm) * Vcrit i o E rho nu) ∧
      (f = 1 ∨ f = 2 ∨ f = 4) := by
  refine ⟨_, dlf_eval h.hi h.ho h.hv h.hE h.hr h.i0 h.o0 h.s0 h.E0 h.rho0 h.nu1 hpm, ?_⟩
  rw [crit4_root]
  have hV : 0 ≤ Vcrit i o E rho nu := by
    rw [← crit4_root]
    exact Real.rpow_nonneg (crit4_nonneg h.nu1) _
  have hlu : (1 - pm) * Vcrit i o E rho nu ≤ (1 + pm) * Vcrit i o E rho nu := by
    nlinarith [hpm.1]
  split
  · rename_i h1
    refine ⟨by simp [h1], ?_, ?_, Or.inl rfl⟩
    · constructor
      · intro h; norm_num at h
      · intro h; linarith
    · constructor
      · intro h; norm_num at h
      · intro h; linarith [h.1]
  · rename_i h1
    split
    · rename_i h2
      refine ⟨?_, by simp [h2], ?_, Or.inr (Or.inl rfl)⟩
      · constructor
        · intro h; norm_num at h
        · intro h; exact absurd h h1
      · constructor
        · intro h; norm_num at h
        · intro h; linarith [h.2]
    · rename_i h2
      refine ⟨?_, ?_, by simp [not_lt.mp h1, not_lt.mp h2], Or.inr (Or.inr rfl)⟩
      · constructor
        · intro h; norm_num at h
        · intro h; exact absurd h h1
      · constructor
        · intro h; norm_num at h
        · intro h; exact absurd h h2

/-- C32: the critical velocity satisfies its defining equation (so it is the real fourth root). -/
theorem C32_Vcrit_fourth_power (hnu : nu ^ 2 < 1) :
    0 ≤ Vcrit i o E rho nu ∧ Vcrit i o E rho nu ^ 4 =
      (E ^ 2 * ((o - i) / 2) ^ 2) / (3 * rho ^ 2 * ((o + i) / 4) ^ 2 * (1 - nu ^ 2)) := by
  have h : 0 < 1 - nu ^ 2 := by linarith
  have h0 : 0 ≤ (E ^ 2 * ((o - i) / 2) ^ 2) / (3 * rho ^ 2 * ((o + i) / 4) ^ 2 * (1 - nu ^ 2)) := by
    positivity
  refine ⟨Real.rpow_nonneg h0 _, ?_⟩
  unfold Vcrit
  rw [← Real.rpow_natCast, ← Real.rpow_mul h0]
  norm_num

/-- C33: a larger tolerance can only move the answer to 4: if the factor is 4 for some tolerance it is 4
for every larger one below 1. -/
theorem C33_tolerance_conservative (h : DlfArgs qi qo qv qE qr i o v E rho nu r r')
    (h0 : 0 < pm) (hle : pm ≤ pm') (h1 : pm' < 1) :
    ∃ f f', dynamicLoadFactor (.quantity qi) (.quantity qo) (.quantity qv) (.quantity qE) (.quantity qr)
        nu pm = .ok f ∧
      dynamicLoadFactor (.quantity qi) (.quantity qo) (.quantity qv) (.quantity qE) (.quantity qr)
        nu pm' = .ok f' ∧ (f' = f ∨ f' = 4) ∧ (f = 4 → f' = 4) := by
  obtain ⟨f, e, a1, a2, a4, af⟩ := C32_classification h ⟨h0, hle.trans_lt h1⟩
  obtain ⟨f', e', b1, b2, b4, bf⟩ := C32_classification h ⟨h0.trans_le hle, h1⟩
  have hV : 0 ≤ Vcrit i o E rho nu := (C32_Vcrit_fourth_power h.nu1).1
  have l1 : (1 - pm') * Vcrit i o E rho nu ≤ (1 - pm) * Vcrit i o E rho nu := by nlinarith
  have l2 : (1 + pm) * Vcrit i o E rho nu ≤ (1 + pm') * Vcrit i o E rho nu := by nlinarith
  refine ⟨f, f', e, e', ?_, ?_⟩
  · rcases bf with hb | hb | hb
    · left; rw [hb]; exact (a1.mpr ((b1.mp hb).trans_le l1)).symm
    · left; rw [hb]; exact (a2.mpr (l2.trans_lt (b2.mp hb))).symm
    · right; exact hb
  · intro hf
    obtain ⟨c1, c2⟩ := a4.mp hf
    exact b4.mpr ⟨l1.trans c1, c2.trans l2⟩

/-- C33: a tolerance outside (0, 1) raises ValueError. -/
theorem C33_bad_tolerance (h : DlfArgs qi qo qv qE qr i o v E rho nu r r') (hpm : pm ≤ 0 ∨ 1 ≤ pm) :
    IsValueError (dynamicLoadFactor (.quantity qi) (.quantity qo) (.quantity qv) (.quantity qE)
      (.quantity qr) nu pm) := by
  have hn : ¬ (0 < pm ∧ pm < 1) := by
    rintro ⟨a, b⟩
    rcases hpm with c | c <;> linarith
  refine ⟨"\nplus_or_minus factor not between 0 and 1", ?_⟩
  simp only [dynamicLoadFactor, checked_ok lookup_length h.hi (fun _ => h.i0),
    checked_ok lookup_length h.ho (fun _ => h.o0),
    checked_ok (pos := false) lookup_velocity h.hv (fun h => by simp at h),
    checked_ok lookup_pressure h.hE (fun _ => h.E0),
    checked_ok lookup_density h.hr (fun _ => h.rho0.le), ok_bind]
  rw [if_pos hn]

/-- Hypotheses of C32/C33 are met: a 4/4.5 inch steel tube and a 2000 m/s wave. -/
example : DlfArgs ⟨4, PUnit.inch, 0⟩ ⟨4.5, PUnit.inch, 0⟩ ⟨2000, PUnit.meterPerSecond, 1⟩
    ⟨200, PUnit.gigapascal, 0⟩ ⟨7.8, PUnit.gramPerCC, 0⟩ 0.1016 0.1143 2000 200000000000 7800 0.28
    0 1 := by
  refine ⟨⟨rfl, rfl, ?_, rfl⟩, ⟨rfl, rfl, ?_, rfl⟩, ⟨rfl, rfl, ?_, rfl⟩, ⟨rfl, rfl, ?_, rfl⟩,
    ⟨rfl, rfl, ?_, rfl⟩, ?_, ?_, ?_, ?_, ?_, ?_⟩ <;>
  norm_num [PUnit.inch, PUnit.meterPerSecond, PUnit.base, PUnit.gigapascal, PUnit.gramPerCC]

/-! ### C34: maximum pressure -/

variable {qs : Quantity} {s sf : ℝ}

/-- C34: the returned pressure `P` is `2 s (od - id) / ((od + id) sf)`; equivalently its mean-diameter
hoop stress `P Dm / (2 t)` equals `s / sf` (when the wall is not of zero thickness). -/
theorem C34_max_pressure (hi : HasVal qi Dim.length i r) (ho : HasVal qo Dim.length o r)
    (hs : HasVal qs Dim.pressure s r) (hd : 0 < o + i) (hsf : sf ≠ 0) :
    ∃ q, maxPressure qi qo qs sf = .ok q ∧ q.unit.dim = Dim.pressure ∧ q.reg = r ∧
      q.phys = 2 * s * (o - i) / ((o + i) * sf) ∧
      (o ≠ i → q.phys * ((o + i) / 2) / (2 * ((o - i) / 2)) = s / sf) := by
  obtain ⟨q, e, h⟩ := maxPressure_eval hi ho hs hd.ne' hsf
  refine ⟨q, e, h.dim, h.reg, h.phys, fun hne => ?_⟩
  rw [h.phys]
  have := sub_ne_zero.mpr hne
  have := hd.ne'
  field_simp

/-- C34: strictly increasing in the outer diameter, strictly decreasing in the inner diameter and in
the safety factor, proportional to the stress, and not positive unless `od > id`. -/
theorem C34_monotone {qi' qo' qs' : Quantity} {i' o' sf' k : ℝ} (hi : HasVal qi Dim.length i r)
    (hi' : HasVal qi' Dim.length i' r) (ho : HasVal qo Dim.length o r)
    (ho' : HasVal qo' Dim.length o' r) (hs : HasVal qs Dim.pressure s r)
    (hs' : HasVal qs' Dim.pressure (k * s) r)
    (i0 : 0 < i) (hio : i < o) (hii : i < i') (hoo : o < o') (s0 : 0 < s) (hsf : 0 < sf)
    (hss : sf < sf') :
    ∃ P Pi Po Psf Ps, maxPressure qi qo qs sf = .ok P ∧ maxPressure qi' qo qs sf = .ok Pi ∧
      maxPressure qi qo' qs sf = .ok Po ∧ maxPressure qi qo qs sf' = .ok Psf ∧
      maxPressure qi qo qs' sf = .ok Ps ∧
      0 < P.phys ∧ Pi.phys < P.phys ∧ P.phys < Po.phys ∧ Psf.phys < P.phys ∧
      Ps.phys = k * P.phys ∧ (o ≤ i' → Pi.phys ≤ 0) := by
  obtain ⟨P, e, h⟩ := maxPressure_eval hi ho hs (by linarith : o + i ≠ 0) hsf.ne'
  obtain ⟨Pi, e1, h1⟩ := maxPressure_eval hi' ho hs (by linarith : o + i' ≠ 0) hsf.ne'
  obtain ⟨Po, e2, h2⟩ := maxPressure_eval hi ho' hs (by linarith : o' + i ≠ 0) hsf.ne'
  obtain ⟨Psf, e3, h3⟩ := maxPressure_eval hi ho hs (by linarith : o + i ≠ 0) (hsf.trans hss).ne'
  obtain ⟨Ps, e4, h4⟩ := maxPressure_eval hi ho hs' (by linarith : o + i ≠ 0) hsf.ne'
  have hsum : 0 < o + i := by linarith
  have hdif : 0 < o - i := by linarith
  refine ⟨P, Pi, Po, Psf, Ps, e, e1, e2, e3, e4, ?_, ?_, ?_, ?_, ?_, ?_⟩
  · rw [h.phys]; positivity
  · rw [h.phys, h1.phys, div_lt_div_iff₀ (by nlinarith) (by positivity)]
    have : 0 < s * sf * o * (i' - i) := by
      have := sub_pos.mpr hii; have : 0 < o := by linarith
      positivity
    nlinarith
  · rw [h.phys, h2.phys, div_lt_div_iff₀ (by positivity) (by nlinarith)]
    have : 0 < s * sf * i * (o' - o) := by
      have := sub_pos.mpr hoo
      positivity
    nlinarith
  · rw [h.phys, h3.phys]
    gcongr
  · rw [h.phys, h4.phys]; ring
  · intro hle
    rw [h1.phys]
    apply div_nonpos_of_nonpos_of_nonneg
    · nlinarith
    · nlinarith

/-! ### C35-C40: the initial-pressure search -/

variable {shock : Quantity → Py Shock} {dlfOf : Quantity → Py ℝ} {useDlf : Bool} {state : String}
  {tol : ℝ} {maxIter : ℤ} {max max' : Quantity} {f : Found}

/-- The 1 atm starting guess. -/
noncomputable def start (reg : Registry) : Quantity := ⟨1, PUnit.atm, reg.id⟩

/-- C35: a state other than "reflected" and "cj" raises ValueError. -/
theorem C35_bad_state (h : state ≠ "reflected" ∧ state ≠ "cj") :
    IsValueError (maxInitialPressure reg shock dlfOf max useDlf tol maxIter state) :=
  ⟨_, if_pos h⟩

theorem maxInitial_unfold (h : maxInitialPressure reg shock dlfOf max useDlf tol maxIter state = .ok f) :
    (state = "reflected" ∨ state = "cj") ∧ max.mag ≠ 0 ∧ ∃ s dlf, shock (start reg) = .ok s ∧
      dlfOf s.cjSpeed = .ok dlf ∧
      search shock dlfOf useDlf state max.mag |tol| maxIter.toNat (start reg) s dlf
        (dlf / max.mag - 1) 0 [start reg] = .ok f := by
  unfold maxInitialPressure at h
  split at h
  · simp at h
  · rename_i hs
    simp only [bind_eq_ok] at h
    obtain ⟨s, e1, dlf, e2, h⟩ := h
    split at h
    · simp at h
    · rename_i hm
      rw [one_mul] at h
      refine ⟨?_, hm, s, dlf, e1, e2, h⟩
      by_contra hc
      exact hs (not_or.mp hc)

/-- C35: on return (the function is total, so it always terminates or raises) the shock state was
evaluated exactly once per update plus once initially, at most `max_iterations` updates were made; the
last pressure evaluated is the one returned; either the recorded error is within the tolerance or
`max_iterations` updates were made; and after at least one update the recorded error and the returned
load factor are those of the returned pressure. -/
theorem C35_exit_contract
    (h : maxInitialPressure reg shock dlfOf max useDlf tol maxIter state = .ok f) :
    (state = "reflected" ∨ state = "cj") ∧
    f.updates ≤ maxIter.toNat ∧ f.evaluated.length = f.updates + 1 ∧
    f.evaluated.getLast? = some f.pressure ∧
    (|f.error| ≤ |tol| ∨ f.updates = maxIter.toNat) ∧
    (1 ≤ f.updates → ∃ s, shock f.pressure = .ok s ∧
      (if useDlf = true then dlfOf s.cjSpeed = .ok f.dlf else f.dlf = 1) ∧
      f.error = ((if state = "cj" then s.cjP else s.reflectedP) * f.dlf - max.mag) / max.mag) ∧
    (f.updates = 0 → f.pressure = start reg ∧ ∃ s, shock (start reg) = .ok s ∧
      dlfOf s.cjSpeed = .ok f.dlf) := by
  obtain ⟨hst, hm, s, dlf, e1, e2, hs⟩ := maxInitial_unfold h
  obtain ⟨a1, a2, a3, a4, a5, a6, a7⟩ := search_contract hs rfl rfl
  rw [Nat.zero_add] at a2 a5
  refine ⟨hst, a2, a3, a4, a5, ?_, ?_⟩
  · intro hu
    obtain ⟨-, s', b1, b2, b3⟩ := a7 hu
    refine ⟨s', b1, ?_, b3⟩
    unfold loopDlf at b2
    cases useDlf with
    | true => exact b2
    | false => exact (Except.ok.inj b2).symm
  · intro hu
    obtain ⟨c1, c2, -⟩ := a6 hu
    exact ⟨c1, s, e1, by rw [c2]; exact e2⟩

/-- C39: when the search stops on its tolerance after at least one update, the selected state's pressure
times the load factor at the returned initial pressure is within `tol` of the limit (magnitudes). -/
theorem C39_within_limit
    (h : maxInitialPressure reg shock dlfOf max useDlf tol maxIter state = .ok f)
    (m0 : 0 < max.mag) (hu : 1 ≤ f.updates) (herr : f.updates < maxIter.toNat) :
    ∃ s, shock f.pressure = .ok s ∧
      (1 - |tol|) * max.mag ≤ (if state = "cj" then s.cjP else s.reflectedP) * f.dlf ∧
      (if state = "cj" then s.cjP else s.reflectedP) * f.dlf ≤ (1 + |tol|) * max.mag := by
  obtain ⟨-, -, -, -, h5, h6, -⟩ := C35_exit_contract h
  obtain ⟨s, e, -, he⟩ := h6 hu
  have ht : |f.error| ≤ |tol| := h5.resolve_right (by omega)
  rw [he, abs_le] at ht
  refine ⟨s, e, ?_, ?_⟩
  · have := (le_div_iff₀ m0).mp ht.1
    linarith
  · have := (div_le_iff₀ m0).mp ht.2
    linarith

/-- A gas whose reflected and CJ pressures are proportional to the initial pressure and whose load
factor does not change. -/
structure Proportional (shock : Quantity → Py Shock) (dlfOf : Quantity → Py ℝ) (k c δ : ℝ) : Prop where
  run : ∀ p P r, HasVal p Dim.pressure P r → 0 < P →
    ∃ s, shock p = .ok s ∧ s.reflectedP = k * P ∧ s.cjP = c * P ∧ dlfOf s.cjSpeed = .ok δ
  k0 : 0 < k
  c0 : 0 < c
  δ0 : 0 < δ

variable {k c δ : ℝ}

/-- One update for a proportional gas, from a positive pressure with known load factor `d`. -/
theorem prop_update (hg : Proportional shock dlfOf k c δ) {p : Quantity} {P : ℝ} {rr : ℕ} {s : Shock}
    {d : ℝ} (hp : HasVal p Dim.pressure P rr) (P0 : 0 < P) (hs : s.reflectedP = k * P) (d0 : 0 < d)
    {m : ℝ} (m0 : 0 < m) {n u : ℕ} {err t : ℝ} {ev : List Quantity} (herr : t < |err|) :
    ∃ p2 s1, HasVal p2 Dim.pressure (m / (d * k)) rr ∧ s1.reflectedP = k * (m / (d * k)) ∧
      s1.cjP = c * (m / (d * k)) ∧
      search shock dlfOf useDlf state m t (n + 1) p s d err u ev =
        search shock dlfOf useDlf state m t n p2 s1 (if useDlf then δ else 1)
          ((s1.selected state * (if useDlf then δ else 1) - m) / m) (u + 1) (ev ++ [p2]) := by
  have k0 := hg.k0
  obtain ⟨p1, e1, h1, -⟩ := scale_spec m hp
  obtain ⟨p2, e2, h2, -⟩ := divNum_spec (k := d * s.reflectedP) (by rw [hs]; positivity) h1
  have h2' : HasVal p2 Dim.pressure (m / (d * k)) rr := h2.cast rfl (by rw [hs]; field_simp)
  obtain ⟨s1, e3, a1, a2, a3⟩ := hg.run p2 _ _ h2' (by positivity)
  refine ⟨p2, s1, h2', a1, a2, ?_⟩
  apply search_step herr e1 e2 e3 _ m0.ne'
  unfold loopDlf
  cases useDlf with
  | true => simpa using a3
  | false => rfl

theorem start_val (reg : Registry) : HasVal (start reg) Dim.pressure 101325 reg.id :=
  (lit_spec 1 PUnit.atm reg.id rfl).cast rfl (by norm_num [PUnit.atm])

theorem maxInitial_start (hg : Proportional shock dlfOf k c δ) (m0 : 0 < max.mag)
    (hst : state = "reflected" ∨ state = "cj") :
    ∃ s, s.reflectedP = k * 101325 ∧
      maxInitialPressure reg shock dlfOf max useDlf tol maxIter state =
        search shock dlfOf useDlf state max.mag |tol| maxIter.toNat (start reg) s δ
          (δ / max.mag - 1) 0 [start reg] := by
  obtain ⟨s, e1, a1, -, a3⟩ := hg.run _ _ _ (start_val reg) (by norm_num)
  refine ⟨s, a1, ?_⟩
  unfold maxInitialPressure
  rw [if_neg (by rintro ⟨x, y⟩; rcases hst with h | h; exact x h; exact y h)]
  have e1' : shock ⟨1, PUnit.atm, reg.id⟩ = .ok s := e1
  simp only [e1', a3, ok_bind, if_neg m0.ne', one_mul]
  rfl

/-- C36: for a proportional gas the first update reaches exactly the limit and the search stops there
(`max_pressure_state="reflected"`, limit in Pa, starting guess not already accepted). -/
theorem C36_exact_for_proportional_gas (hg : Proportional shock dlfOf k c δ) (m0 : 0 < max.mag)
    (hit : 1 ≤ maxIter) (hne : |tol| < |δ / max.mag - 1|) :
    ∃ f, maxInitialPressure reg shock dlfOf max true tol maxIter "reflected" = .ok f ∧
      f.updates = 1 ∧ f.error = 0 ∧ f.dlf = δ ∧
      HasVal f.pressure Dim.pressure (max.mag / (δ * k)) reg.id ∧
      ∃ s, shock f.pressure = .ok s ∧ s.reflectedP * f.dlf = max.mag := by
  obtain ⟨s, hs, e⟩ := maxInitial_start (reg := reg) (useDlf := true) (tol := tol)
    (maxIter := maxIter) hg m0 (Or.inl rfl : "reflected" = "reflected" ∨ "reflected" = "cj")
  obtain ⟨n, hn⟩ : ∃ n, maxIter.toNat = n + 1 := ⟨maxIter.toNat - 1, by omega⟩
  obtain ⟨p2, s1, v2, r2, c2, e2⟩ := prop_update (useDlf := true) (state := "reflected") hg
    (start_val reg) (by norm_num) hs hg.δ0 m0 (n := n) (u := 0) (ev := [start reg]) hne
  have hd := hg.δ0.ne'
  have hk := hg.k0.ne'
  have herr : (s1.selected "reflected" * (if true = true then δ else 1) - max.mag) / max.mag = 0 := by
    have : s1.selected "reflected" = s1.reflectedP := by simp [Shock.selected]
    rw [this, r2, if_pos rfl]; field_simp; simp
  rw [hn, e2, herr, if_pos rfl, search_stop (by simp)] at e
  refine ⟨_, e, rfl, rfl, rfl, v2, ?_⟩
  obtain ⟨s2, e3, b1, -, -⟩ := hg.run p2 _ _ v2 (by have := hg.δ0; have := hg.k0; positivity)
  exact ⟨s2, e3, by rw [b1]; field_simp⟩

/-- C36 without the dynamic load factor: at most two updates reach exactly the limit (the load factor is
still used in the first update). -/
theorem C36_exact_without_dlf (hg : Proportional shock dlfOf k c δ) (m0 : 0 < max.mag)
    (hit : 2 ≤ maxIter) (hne : |tol| < |δ / max.mag - 1|) (hne2 : |tol| < |1 / δ - 1|) :
    ∃ f, maxInitialPressure reg shock dlfOf max false tol maxIter "reflected" = .ok f ∧
      f.updates = 2 ∧ f.error = 0 ∧ f.dlf = 1 ∧
      HasVal f.pressure Dim.pressure (max.mag / k) reg.id ∧
      ∃ s, shock f.pressure = .ok s ∧ s.reflectedP = max.mag := by
  obtain ⟨s, hs, e⟩ := maxInitial_start (reg := reg) (useDlf := false) (tol := tol)
    (maxIter := maxIter) hg m0 (Or.inl rfl : "reflected" = "reflected" ∨ "reflected" = "cj")
  obtain ⟨n, hn⟩ : ∃ n, maxIter.toNat = n + 1 + 1 := ⟨maxIter.toNat - 2, by omega⟩
  have hd := hg.δ0
  have hk := hg.k0
  obtain ⟨p2, s1, v2, r2, c2, e2⟩ := prop_update (useDlf := false) (state := "reflected") hg
    (start_val reg) (by norm_num) hs hg.δ0 m0 (n := n + 1) (u := 0) (ev := [start reg]) hne
  have herr : (s1.selected "reflected" * (if false = true then δ else 1) - max.mag) / max.mag =
      1 / δ - 1 := by
    have : s1.selected "reflected" = s1.reflectedP := by simp [Shock.selected]
    rw [this, r2, if_neg (by simp)]; field_simp
  rw [hn, e2, herr, if_neg (by simp)] at e
  obtain ⟨p3, s3, v3, r3, c3, e3⟩ := prop_update (useDlf := false) (state := "reflected") hg
    v2 (by positivity) r2 one_pos m0 (n := n) (u := 0 + 1) (ev := [start reg] ++ [p2]) hne2
  have herr3 : (s3.selected "reflected" * (if false = true then δ else 1) - max.mag) / max.mag = 0 := by
    have : s3.selected "reflected" = s3.reflectedP := by simp [Shock.selected]
    rw [this, r3, if_neg (by simp)]; field_simp; simp
  rw [e3, herr3, if_neg (by simp), search_stop (by simp)] at e
  have v3' : HasVal p3 Dim.pressure (max.mag / k) reg.id := v3.cast rfl (by rw [one_mul])
  refine ⟨_, e, rfl, rfl, rfl, v3', ?_⟩
  obtain ⟨s2, e4, b1, -, -⟩ := hg.run p3 _ _ v3' (by positivity)
  exact ⟨s2, e4, by rw [b1]; field_simp⟩

/-- A proportional gas: reflected 40 times, CJ 16 times the initial pressure, load factor 2. -/
noncomputable def toyShock (p : Quantity) : Py Shock :=
  .ok ⟨⟨2000, PUnit.meterPerSecond, 0⟩, 16 * p.phys, 40 * p.phys⟩

/-- The hypotheses of C36-C38 are met. -/
theorem toy_proportional : Proportional toyShock (fun _ => .ok 2) 40 16 2 :=
  ⟨fun p P r hp _ => ⟨_, rfl, by simp [hp.phys], by simp [hp.phys], rfl⟩, by norm_num, by norm_num,
    by norm_num⟩

/-- C37: the unit of `max_pressure` is ignored: only its magnitude enters. -/
theorem C37_unit_ignored (h : max.mag = max'.mag) :
    maxInitialPressure reg shock dlfOf max useDlf tol maxIter state =
      maxInitialPressure reg shock dlfOf max' useDlf tol maxIter state := by
  unfold maxInitialPressure
  rw [h]

/-- C37 is false: for every proportional gas, 15 MPa and 15 000 000 Pa (the same pressure) give initial
pressures that differ by a factor of a million. -/
theorem C37_violated (hg : Proportional shock dlfOf k c δ) (hδ : δ ≤ 4) (hit : 1 ≤ maxIter)
    (ht : |tol| ≤ 0.5) :
    let mpa : PUnit := ⟨1000000, 0, Dim.pressure, by norm_num⟩
    (⟨15, mpa, 0⟩ : Quantity).phys = (⟨15000000, PUnit.pascal, 0⟩ : Quantity).phys ∧
    ∃ f g, maxInitialPressure reg shock dlfOf ⟨15, mpa, 0⟩ true tol maxIter "reflected" = .ok f ∧
      maxInitialPressure reg shock dlfOf ⟨15000000, PUnit.pascal, 0⟩ true tol maxIter "reflected" =
        .ok g ∧
      g.pressure.phys = 1000000 * f.pressure.phys ∧ 0 < f.pressure.phys := by
  intro mpa
  have hd := hg.δ0
  have hk := hg.k0
  have h1 : |tol| < |δ / 15 - 1| := by
    rw [abs_sub_comm]; refine lt_of_le_of_lt ht (lt_of_lt_of_le ?_ (le_abs_self _)); linarith
  have h2 : |tol| < |δ / 15000000 - 1| := by
    rw [abs_sub_comm]; refine lt_of_le_of_lt ht (lt_of_lt_of_le ?_ (le_abs_self _)); linarith
  obtain ⟨f, ef, -, -, -, vf, -⟩ := C36_exact_for_proportional_gas (reg := reg)
    (max := ⟨15, mpa, 0⟩) hg (by norm_num) hit h1
  obtain ⟨g, eg, -, -, -, vg, -⟩ := C36_exact_for_proportional_gas (reg := reg)
    (max := ⟨15000000, PUnit.pascal, 0⟩) hg (by norm_num) hit h2
  refine ⟨by norm_num [Quantity.phys, PUnit.pascal, PUnit.base, mpa], f, g, ef, eg, ?_, ?_⟩
  · rw [vf.phys, vg.phys]; ring
  · rw [vf.phys]; positivity

/-- C37, proved part: any two spellings of the limit in a unit of scale one (Pa) agree; i.e. the
computation is right for a limit given in pascals (see C36, C39). -/
theorem C37_pascal_partial (h : max.unit = PUnit.pascal) (h' : max'.unit = PUnit.pascal)
    (hp : max.phys = max'.phys) :
    maxInitialPressure reg shock dlfOf max useDlf tol maxIter state =
      maxInitialPressure reg shock dlfOf max' useDlf tol maxIter state := by
  apply C37_unit_ignored
  simpa [Quantity.phys, h, h', PUnit.pascal, PUnit.base] using hp

theorem cj_loop (hg : Proportional shock dlfOf k c δ) (m0 : 0 < max.mag) {t : ℝ}
    (hck : t < |c / k - 1|) (n : ℕ) :
    ∀ (p : Quantity) (s : Shock) (u : ℕ) (ev : List Quantity),
      HasVal p Dim.pressure (max.mag / (δ * k)) reg.id → s.reflectedP = k * (max.mag / (δ * k)) →
      ∃ f, search shock dlfOf true "cj" max.mag t n p s δ (c / k - 1) u ev = .ok f ∧
        f.updates = u + n ∧ f.error = c / k - 1 ∧
        HasVal f.pressure Dim.pressure (max.mag / (δ * k)) reg.id := by
  have hd := hg.δ0
  have hk := hg.k0
  induction n with
  | zero => intro p s u ev hp _; exact ⟨_, rfl, rfl, rfl, hp⟩
  | succ n ih =>
    intro p s u ev hp hs
    obtain ⟨p2, s1, v2, r2, c2, e2⟩ := prop_update (useDlf := true) (state := "cj") hg
      hp (by positivity) hs hg.δ0 m0 (n := n) (u := u) (ev := ev) hck
    have herr : (s1.selected "cj" * (if true = true then δ else 1) - max.mag) / max.mag =
        c / k - 1 := by
      have : s1.selected "cj" = s1.cjP := by simp [Shock.selected]
      rw [this, c2, if_pos rfl]; field_simp
    rw [e2, herr, if_pos rfl]
    obtain ⟨f, e, a1, a2, a3⟩ := ih p2 s1 (u + 1) (ev ++ [p2]) v2 r2
    exact ⟨f, e, by omega, a2, a3⟩

/-- C38 is false: with `max_pressure_state="cj"` every proportional gas with different reflected and CJ
pressures exhausts all iterations, and the result still makes the *reflected* pressure meet the limit:
the CJ pressure times DLF is `c/k` of it. -/
theorem C38_violated (hg : Proportional shock dlfOf k c δ) (m0 : 0 < max.mag) (hit : 1 ≤ maxIter)
    (hne : |tol| < |δ / max.mag - 1|) (hck : |tol| < |c / k - 1|) :
    ∃ f, maxInitialPressure reg shock dlfOf max true tol maxIter "cj" = .ok f ∧
      f.updates = maxIter.toNat ∧ |tol| < |f.error| ∧
      ∃ s, shock f.pressure = .ok s ∧ s.reflectedP * δ = max.mag ∧
        s.cjP * δ = c / k * max.mag := by
  obtain ⟨s, hs, e⟩ := maxInitial_start (reg := reg) (useDlf := true) (tol := tol)
    (maxIter := maxIter) hg m0 (Or.inr rfl : "cj" = "reflected" ∨ "cj" = "cj")
  obtain ⟨n, hn⟩ : ∃ n, maxIter.toNat = n + 1 := ⟨maxIter.toNat - 1, by omega⟩
  have hd := hg.δ0
  have hk := hg.k0
  obtain ⟨p2, s1, v2, r2, c2, e2⟩ := prop_update (useDlf := true) (state := "cj") hg
    (start_val reg) (by norm_num) hs hg.δ0 m0 (n := n) (u := 0) (ev := [start reg]) hne
  have herr : (s1.selected "cj" * (if true = true then δ else 1) - max.mag) / max.mag =
      c / k - 1 := by
    have : s1.selected "cj" = s1.cjP := by simp [Shock.selected]
    rw [this, c2, if_pos rfl]; field_simp
  rw [hn, e2, herr, if_pos rfl] at e
  obtain ⟨f, ef, a1, a2, a3⟩ := cj_loop (reg := reg) hg m0 hck n p2 s1 (0 + 1) ([start reg] ++ [p2]) v2 r2
  rw [ef] at e
  refine ⟨f, e, by omega, by rw [a2]; exact hck, ?_⟩
  obtain ⟨s2, e4, b1, b2, -⟩ := hg.run f.pressure _ _ a3 (by positivity)
  exact ⟨s2, e4, by rw [b1]; field_simp, by rw [b2]; field_simp⟩

/-- C38 hypotheses: the toy gas, 15 MPa in Pa, default tolerance. -/
example : |(0.0001 : ℝ)| < |(2 : ℝ) / 15000000 - 1| ∧ |(0.0001 : ℝ)| < |(16 : ℝ) / 40 - 1| := by
  constructor <;> norm_num [abs_lt, lt_abs]

/-- C38, proved part: if the search with "cj" stops on its tolerance after an update, the CJ pressure
times DLF does meet the limit within the tolerance. -/
theorem C38_if_converged_partial
    (h : maxInitialPressure reg shock dlfOf max useDlf tol maxIter "cj" = .ok f)
    (m0 : 0 < max.mag) (hu : 1 ≤ f.updates) (herr : f.updates < maxIter.toNat) :
    ∃ s, shock f.pressure = .ok s ∧ |s.cjP * f.dlf - max.mag| ≤ |tol| * max.mag := by
  obtain ⟨s, e, h1, h2⟩ := C39_within_limit h m0 hu herr
  rw [if_pos rfl] at h1 h2
  refine ⟨s, e, ?_⟩
  rw [abs_le]
  constructor <;> linarith

/-- C40 is false: whenever the magnitude of the limit happens to equal the load factor at 1 atm (e.g. a
4 MPa limit given in MPa and a factor of 4), the search returns its 1 atm starting guess at once,
whatever pressures the detonation reaches. -/
theorem C40_violated {s : Shock} (h1 : shock (start reg) = .ok s) (h2 : dlfOf s.cjSpeed = .ok max.mag)
    (m0 : max.mag ≠ 0) (hst : state = "reflected" ∨ state = "cj") :
    ∃ f, maxInitialPressure reg shock dlfOf max useDlf tol maxIter state = .ok f ∧
      f.pressure = start reg ∧ f.updates = 0 ∧ f.evaluated = [start reg] := by
  have e1' : shock ⟨1, PUnit.atm, reg.id⟩ = .ok s := h1
  refine ⟨⟨start reg, max.mag, 0, 0, [start reg]⟩, ?_, rfl, rfl, rfl⟩
  unfold maxInitialPressure
  rw [if_neg (by rintro ⟨x, y⟩; rcases hst with h | h; exact x h; exact y h)]
  simp only [e1', h2, ok_bind, if_neg m0, one_mul, div_self m0, sub_self]
  exact search_stop (by simp)

/-- C40 instance: a gas that reaches 1 GPa in a tube limited to 4 MPa with factor 4 is accepted at
1 atm. -/
example : ∃ f, maxInitialPressure reg (fun _ => .ok ⟨⟨2000, PUnit.meterPerSecond, 0⟩, 10 ^ 9, 10 ^ 9⟩)
    (fun _ => .ok 4) ⟨4, ⟨1000000, 0, Dim.pressure, by norm_num⟩, 0⟩ true 0.0001 500 "reflected" = .ok f ∧
    f.pressure = start reg ∧ f.updates = 0 ∧ f.evaluated = [start reg] :=
  C40_violated rfl rfl (by norm_num) (Or.inl rfl)

/-- C40, exactly: when at least one update is allowed, the starting guess is returned unchecked if and only if the load
factor at 1 atm, divided by the magnitude of the limit, is within the tolerance of 1. -/
theorem C40_unchecked_iff {s : Shock} {dlf : ℝ}
    (h : maxInitialPressure reg shock dlfOf max useDlf tol maxIter state = .ok f)
    (e1 : shock (start reg) = .ok s) (e2 : dlfOf s.cjSpeed = .ok dlf) (hit : 1 ≤ maxIter) :
    f.updates = 0 ↔ |dlf / max.mag - 1| ≤ |tol| := by
  obtain ⟨hst, hm0, s', dlf', e1', e2', hs⟩ := maxInitial_unfold h
  rw [e1, Except.ok.injEq] at e1'
  subst e1'
  rw [e2, Except.ok.injEq] at e2'
  subst e2'
  obtain ⟨a1, a2, a3, a4, a5, a6, a7⟩ := search_contract hs rfl rfl
  simp only [start] at a6 a7
  constructor
  · intro h0
    rw [(a6 h0).2.2] at a5
    rcases a5 with a5 | a5
    · exact a5
    · omega
  · intro hle
    by_contra h0
    exact absurd (a7 (by omega)).1 (not_lt.mpr hle)

/-- C40, proved part: when the limit's magnitude is large compared with any load factor (as for
pressures in Pa), a returned pressure has always been compared with the limit: at least one update is
made whenever one is allowed. -/
theorem C40_compared_partial
    (h : maxInitialPressure reg shock dlfOf max useDlf tol maxIter state = .ok f)
    (hd : ∀ v d, dlfOf v = .ok d → 0 < d ∧ d ≤ 4) (hm : 4 < (1 - |tol|) * max.mag)
    (ht : |tol| < 1) (hit : 1 ≤ maxIter) : 1 ≤ f.updates := by
  obtain ⟨hst, hm0, s, dlf, e1, e2, hs⟩ := maxInitial_unfold h
  obtain ⟨a1, a2, a3, a4, a5, a6, a7⟩ := search_contract hs rfl rfl
  by_contra hu
  have hu0 : f.updates = 0 := by omega
  obtain ⟨-, -, c3⟩ := a6 hu0
  rcases a5 with a5 | a5
  · rw [c3] at a5
    obtain ⟨d0, d4⟩ := hd _ _ e2
    have hmp : 0 < max.mag := by
      by_contra hneg
      have : (1 - |tol|) * max.mag ≤ 0 :=
        mul_nonpos_of_nonneg_of_nonpos (by linarith) (not_lt.mp hneg)
      linarith
    have h1 : dlf / max.mag < 1 - |tol| := by
      rw [div_lt_iff₀ hmp]; linarith
    have h2 := (abs_le.mp a5).1
    linarith
  · omega

/-- C40: with `dynamic_load_factor` itself the bound on the load factor holds. -/
theorem C40_dlf_bound (h : dynamicLoadFactor (.quantity qi) (.quantity qo) (.quantity qv)
    (.quantity qE) (.quantity qr) nu pm = .ok δ) : 0 < δ ∧ δ ≤ 4 := by
  unfold dynamicLoadFactor at h
  simp only [bind_eq_ok] at h
  obtain ⟨_, -, _, -, _, -, _, -, _, -, h⟩ := h
  split at h
  · simp at h
  · simp only [bind_eq_ok] at h
    obtain ⟨_, -, _, -, _, -, _, -, _, -, _, -, h⟩ := h
    split at h
    · rw [Except.ok.injEq] at h; subst h; norm_num
    · split at h
      · rw [Except.ok.injEq] at h; subst h; norm_num
      · rw [Except.ok.injEq] at h; subst h; norm_num

end Pypbomb.Tube
