import Verif.Lemmas.Pint
import Verif.Model.Tube

namespace Pypbomb.Tube
open Quantity

/-- Positive powers allow zero. -/
theorem pow_nonneg_spec {a : Quantity} {d : Dim} {v : ℝ} {r : ℕ} (p : ℚ) (hp : 0 < p)
    (ha : HasVal a d v r) (hv : 0 ≤ v) :
    ∃ c, a.pow p = .ok c ∧ HasVal c (d.pow p) (v ^ (p : ℝ)) r := by
  have h1 : ¬ a.mag < 0 := fun h => absurd (ha.mag_neg_iff.mp h) (not_lt.mpr hv)
  refine ⟨⟨a.mag ^ (p : ℝ), a.unit.pow p, a.reg⟩, ?_, ?_, rfl, ?_, ha.reg⟩
  · have h4 : ¬ (a.mag = 0 ∧ p < 0) := fun h => absurd h.2 (not_lt.mpr hp.le)
    have h5 : ¬ (a.mag < 0 ∧ p.den ≠ 1) := fun h => h1 h.1
    simp only [Quantity.pow, noOffset, ha.off, if_true, ok_bind, if_neg h4, if_neg h5]
  · simp [PUnit.pow, ha.dim]
  · simp only [PUnit.pow, ← ha.val]
    rw [Real.mul_rpow (not_lt.mp h1) a.unit.pos.le]

variable {qi qo qE qr qv : Quantity} {i o E rho v nu pm : ℝ} {r r' : ℕ}

/-- Value under the fourth root. -/
noncomputable def crit4 (i o E rho nu : ℝ) : ℝ :=
  (E ^ 2 * ((o - i) / 2) ^ 2) / ((1 - nu ^ 2) * (3 * rho ^ 2 * ((o + i) / 4) ^ 2))

theorem crit4_nonneg (hnu : nu ^ 2 < 1) : 0 ≤ crit4 i o E rho nu := by
  unfold crit4
  have : 0 < 1 - nu ^ 2 := by linarith
  positivity

theorem critVelocity_eval (hi : HasVal qi Dim.length i r) (ho : HasVal qo Dim.length o r)
    (hE : HasVal qE Dim.pressure E r) (hr : HasVal qr Dim.density rho r)
    (hs : o + i ≠ 0) (rho0 : rho ≠ 0) (hnu : nu ^ 2 < 1) :
    ∃ q, critVelocity qi qo qE qr nu = .ok q ∧
      HasVal q Dim.velocity (crit4 i o E rho nu ^ (((1 / 4 : ℚ)) : ℝ)) r := by
  obtain ⟨c1, e1, h1, -⟩ := add_spec ho hi
  obtain ⟨c2, e2, h2, -⟩ := divNum_spec (k := 4) (by norm_num) h1
  obtain ⟨c3, e3, h3, -⟩ := sub_spec ho hi
  obtain ⟨c4, e4, h4, -⟩ := divNum_spec (k := 2) (by norm_num) h3
  obtain ⟨c5, e5, h5⟩ := sq_spec hE
  obtain ⟨c6, e6, h6⟩ := sq_spec h4
  obtain ⟨c7, e7, h7⟩ := mul_spec h5 h6
  obtain ⟨c8, e8, h8⟩ := sq_spec hr
  obtain ⟨c9, e9, h9, -⟩ := scale_spec 3 h8
  obtain ⟨c10, e10, h10⟩ := sq_spec h2
  obtain ⟨c11, e11, h11⟩ := mul_spec h9 h10
  obtain ⟨c12, e12, h12, -⟩ := scale_spec (1 - nu ^ 2) h11
  have h0 : (1 - nu ^ 2) * (3 * rho ^ 2 * ((o + i) / 4) ^ 2) ≠ 0 := by
    have : 1 - nu ^ 2 ≠ 0 := by linarith
    positivity
  obtain ⟨c13, e13, h13⟩ := div_spec h7 h12 h0
  obtain ⟨c14, e14, h14⟩ := pow_nonneg_spec (1 / 4) (by norm_num) h13 (crit4_nonneg hnu)
  refine ⟨c14, ?_, h14.cast (by dims) rfl⟩
  simp only [critVelocity, e1, e2, e3, e4, e5, e6, e7, e8, e9, e10, e11, e12, e13, e14, ok_bind]

theorem checked_ok {q : Quantity} {kind : String} {dk : Dim} {x : ℝ} {pos : Bool}
    (hk : supportedDims.lookup kind = some dk) (h : HasVal q dk x r) (hv : pos = true → 0 ≤ x) :
    checked (.quantity q) kind pos = .ok q := by
  have : checkQ q kind pos = .ok () := by
    rw [checkQ_eq q kind pos hk]
    rw [if_neg, if_pos h.dim]
    rintro ⟨h1, h2⟩
    rw [h.phys] at h2
    exact absurd (hv h1) (not_le.mpr h2)
  simp only [checked, this, ok_bind]

theorem dlf_eval (hi : HasVal qi Dim.length i r) (ho : HasVal qo Dim.length o r)
    (hv : HasVal qv Dim.velocity v r')
    (hE : HasVal qE Dim.pressure E r) (hr : HasVal qr Dim.density rho r)
    (i0 : 0 ≤ i) (o0 : 0 ≤ o) (hs : 0 < o + i) (E0 : 0 ≤ E) (rho0 : 0 < rho) (hnu : nu ^ 2 < 1)
    (hpm : 0 < pm ∧ pm < 1) :
    dynamicLoadFactor (.quantity qi) (.quantity qo) (.quantity qv) (.quantity qE) (.quantity qr) nu pm =
      .ok (if v < (1 - pm) * crit4 i o E rho nu ^ (((1 / 4 : ℚ)) : ℝ) then 1
        else if (1 + pm) * crit4 i o E rho nu ^ (((1 / 4 : ℚ)) : ℝ) < v then 2 else 4) := by
  obtain ⟨qc, ec, hc⟩ := critVelocity_eval hi ho hE hr hs.ne' rho0.ne' hnu
  obtain ⟨c1, e1, h1, -⟩ := scale_spec (1 + pm) hc
  obtain ⟨c2, e2, h2, u2⟩ := convert_spec (u := PUnit.meterPerSecond) h1 rfl rfl
  obtain ⟨c3, e3, h3, -⟩ := scale_spec (1 - pm) hc
  obtain ⟨c4, e4, h4, u4⟩ := convert_spec (u := PUnit.meterPerSecond) h3 rfl rfl
  obtain ⟨c5, e5, h5, u5⟩ := convert_spec (u := PUnit.meterPerSecond) hv rfl rfl
  have m2 : c2.mag = (1 + pm) * crit4 i o E rho nu ^ (((1 / 4 : ℚ)) : ℝ) := by
    have := h2.val
    rwa [u2, show PUnit.meterPerSecond.scale = 1 from rfl, mul_one] at this
  have m4 : c4.mag = (1 - pm) * crit4 i o E rho nu ^ (((1 / 4 : ℚ)) : ℝ) := by
    have := h4.val
    rwa [u4, show PUnit.meterPerSecond.scale = 1 from rfl, mul_one] at this
  have m5 : c5.mag = v := by
    have := h5.val
    rwa [u5, show PUnit.meterPerSecond.scale = 1 from rfl, mul_one] at this
  simp only [dynamicLoadFactor, checked_ok lookup_length hi (fun _ => i0),
    checked_ok lookup_length ho (fun _ => o0),
    checked_ok (pos := false) lookup_velocity hv (fun h => by simp at h),
    checked_ok lookup_pressure hE (fun _ => E0), checked_ok lookup_density hr (fun _ => rho0.le),
    ok_bind, if_neg (not_not.mpr hpm), ec, e1, e2, e3, e4, e5, m2, m4, m5]
  split
  · rfl
  · split <;> rfl

theorem maxPressure_eval {qs : Quantity} {s sf : ℝ} (hi : HasVal qi Dim.length i r)
    (ho : HasVal qo Dim.length o r)
    (hs : HasVal qs Dim.pressure s r) (hd : o + i ≠ 0) (hsf : sf ≠ 0) :
    ∃ q, maxPressure qi qo qs sf = .ok q ∧
      HasVal q Dim.pressure (2 * s * (o - i) / ((o + i) * sf)) r := by
  obtain ⟨c1, e1, h1, -⟩ := add_spec ho hi
  obtain ⟨c2, e2, h2, -⟩ := divNum_spec (k := 2) (by norm_num) h1
  obtain ⟨c3, e3, h3, -⟩ := sub_spec ho hi
  obtain ⟨c4, e4, h4, -⟩ := divNum_spec (k := 2) (by norm_num) h3
  obtain ⟨c5, e5, h5, -⟩ := scale_spec 2 h4
  obtain ⟨c6, e6, h6⟩ := mul_spec hs h5
  obtain ⟨c7, e7, h7, -⟩ := scale_spec sf h2
  obtain ⟨c8, e8, h8⟩ := div_spec h6 h7 (by positivity)
  refine ⟨c8, ?_, h8.cast (by dims) (by field_simp)⟩
  simp only [maxPressure, e1, e2, e3, e4, e5, e6, e7, e8, ok_bind]

/-! ### The search loop -/

variable {shock : Quantity → Py Shock} {dlfOf : Quantity → Py ℝ} {useDlf : Bool} {state : String}
  {m tol : ℝ}

/-- One round of the loop. -/
theorem search_step {n k : ℕ} {p p1 p2 : Quantity} {s s1 : Shock} {dlf dlf1 err : ℝ}
    {ev : List Quantity} (h : tol < |err|) (e1 : scale m p = .ok p1)
    (e2 : p1.divNum (dlf * s.reflectedP) = .ok p2) (e3 : shock p2 = .ok s1)
    (e4 : loopDlf dlfOf useDlf s1.cjSpeed = .ok dlf1) (hm : m ≠ 0) :
    search shock dlfOf useDlf state m tol (n + 1) p s dlf err k ev =
      search shock dlfOf useDlf state m tol n p2 s1 dlf1 ((s1.selected state * dlf1 - m) / m)
        (k + 1) (ev ++ [p2]) := by
  rw [search, if_pos h]
  simp only [e1, e2, e3, ok_bind, e4, if_neg hm]

/-- The loop stops when the error is within the tolerance. -/
theorem search_stop {n k : ℕ} {p : Quantity} {s : Shock} {dlf err : ℝ} {ev : List Quantity}
    (h : |err| ≤ tol) :
    search shock dlfOf useDlf state m tol n p s dlf err k ev = .ok ⟨p, dlf, err, k, ev⟩ := by
  cases n with
  | zero => rfl
  | succ n => rw [search, if_neg (not_lt.mpr h)]

/-- What one knows of the numbers carried by the loop: `err` and `dlf` belong to `p`. -/
def Judged (shock : Quantity → Py Shock) (dlfOf : Quantity → Py ℝ) (useDlf : Bool) (state : String)
    (m : ℝ) (p : Quantity) (s : Shock) (dlf err : ℝ) : Prop :=
  shock p = .ok s ∧ loopDlf dlfOf useDlf s.cjSpeed = .ok dlf ∧
    err = (s.selected state * dlf - m) / m

/-- Exit contract of the loop. -/
theorem search_contract {n k : ℕ} {p : Quantity} {s : Shock} {dlf err : ℝ} {ev : List Quantity}
    {f : Found} (h : search shock dlfOf useDlf state m tol n p s dlf err k ev = .ok f)
    (hev : ev.length = k + 1) (hlast : ev.getLast? = some p) :
    k ≤ f.updates ∧ f.updates ≤ k + n ∧ f.evaluated.length = f.updates + 1 ∧
    f.evaluated.getLast? = some f.pressure ∧ (|f.error| ≤ tol ∨ f.updates = k + n) ∧
    (f.updates = k → f.pressure = p ∧ f.dlf = dlf ∧ f.error = err) ∧
    (k < f.updates → tol < |err| ∧ ∃ s', Judged shock dlfOf useDlf state m f.pressure s' f.dlf f.error) := by
  induction n generalizing k p s dlf err ev with
  | zero =>
    rw [search, Except.ok.injEq] at h
    subst h
    exact ⟨le_rfl, le_rfl, hev, hlast, Or.inr rfl, fun _ => ⟨rfl, rfl, rfl⟩,
      fun h => absurd h (lt_irrefl _)⟩
  | succ n ih =>
    by_cases ht : tol < |err|
    · rw [search, if_pos ht] at h
      simp only [bind_eq_ok] at h
      obtain ⟨p1, e1, p2, e2, s1, e3, dlf1, e4, h⟩ := h
      split at h
      · simp at h
      · obtain ⟨a1, a2, a3, a4, a5, a6, a7⟩ := ih h (by simp [hev]) (by simp)
        refine ⟨by omega, by omega, a3, a4, ?_, fun hk => by omega, fun _ => ⟨ht, ?_⟩⟩
        · rcases a5 with a5 | a5
          · exact Or.inl a5
          · exact Or.inr (by omega)
        · rcases Nat.lt_or_ge (k + 1) f.updates with hk | hk
          · exact (a7 hk).2
          · obtain ⟨b1, b2, b3⟩ := a6 (by omega)
            exact ⟨s1, by rw [b1]; exact e3, by rw [b2]; exact e4, by rw [b3, b2]⟩
    · rw [search, if_neg ht, Except.ok.injEq] at h
      subst h
      exact ⟨le_rfl, by simp, hev, hlast, Or.inl (not_lt.mp ht), fun _ => ⟨rfl, rfl, rfl⟩,
        fun h => absurd h (lt_irrefl _)⟩

end Pypbomb.Tube
