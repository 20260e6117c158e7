/-
Rounding in the search for the initial pressure (C123).
-/
import Verif.Model.RoundedSearch
import Verif.Props.Rounded
import Verif.Props.Tube

namespace Pypbomb.Tube
open Quantity

/-- With exact arithmetic the rounded `calculate_max_initial_pressure` is `calculate_max_initial_pressure`. -/
theorem C123_exact (reg : Registry) (shock : Quantity → Py Shock) (dlfOf : Quantity → Py ℝ) (max : Quantity)
    (useDlf : Bool) (tol : ℝ) (maxIter : ℤ) (state : String) :
    maxInitialPressureR FP.exact reg shock dlfOf max useDlf tol maxIter state =
      maxInitialPressure reg shock dlfOf max useDlf tol maxIter state := by
  have e : ∀ x, FP.exact.rnd x = x := fun _ => rfl
  have hs : ∀ (m t : ℝ) (n : ℕ) p s dlf err k ev,
      searchR FP.exact shock dlfOf useDlf state m t n p s dlf err k ev =
        search shock dlfOf useDlf state m t n p s dlf err k ev := by
    intro m t n
    induction n with
    | zero => intros; rfl
    | succ n ih =>
      intro p s dlf err k ev
      simp only [searchR, search, scaleR_exact, divNumR_exact, e, ih]
  simp only [maxInitialPressureR, maxInitialPressure, hs, e]

variable {fp : FP} {u : ℝ} {κ : ℕ} {reg : Registry} {shock : Quantity → Py Shock} {dlfOf : Quantity → Py ℝ}
  {max : Quantity} {useDlf : Bool} {tol : ℝ} {maxIter : ℤ} {state : String} {f : Found}

/-- What is recorded after an update. -/
def Recorded (fp : FP) (shock : Quantity → Py Shock) (dlfOf : Quantity → Py ℝ) (useDlf : Bool) (state : String) (m : ℝ)
    (p : Quantity) (dlf err : ℝ) : Prop :=
  ∃ s, shock p = .ok s ∧ (if useDlf = true then dlfOf s.cjSpeed = .ok dlf else dlf = 1) ∧
    err = fp.rnd (fp.rnd (fp.rnd (s.selected state * dlf) - m) / m)

theorem searchR_out {m t : ℝ} : ∀ (n : ℕ) {p s dlf err k ev},
    searchR fp shock dlfOf useDlf state m t n p s dlf err k ev = .ok f →
    (1 ≤ k → Recorded fp shock dlfOf useDlf state m p dlf err) →
    k ≤ f.updates ∧ f.updates ≤ k + n ∧ (|f.error| ≤ t ∨ f.updates = k + n) ∧
      (1 ≤ f.updates → Recorded fp shock dlfOf useDlf state m f.pressure f.dlf f.error) := by
  intro n
  induction n with
  | zero =>
    intro p s dlf err k ev h hr
    simp only [searchR] at h
    cases h
    exact ⟨le_rfl, le_rfl, .inr rfl, hr⟩
  | succ n ih =>
    intro p s dlf err k ev h hr
    simp only [searchR] at h
    split at h
    · simp only [bind_eq_ok] at h
      obtain ⟨p1, -, p2, -, s1, e3, d1, e4, h⟩ := h
      split at h
      · cases h
      · obtain ⟨a, b, c, d⟩ := ih h (fun _ => ⟨s1, e3, by
          unfold loopDlf at e4
          split at e4
          · next hu => simpa [hu] using e4
          · next hu => simp only [hu]; cases e4; simp, rfl⟩)
        refine ⟨by omega, by omega, ?_, d⟩
        rcases c with c | c
        · exact .inl c
        · exact .inr (by omega)
    · next hlt =>
      cases h
      exact ⟨le_rfl, Nat.le_add_right _ _, .inl (not_lt.mp hlt), hr⟩

theorem out (h : maxInitialPressureR fp reg shock dlfOf max useDlf tol maxIter state = .ok f) :
    f.updates ≤ maxIter.toNat ∧ (|f.error| ≤ |tol| ∨ f.updates = maxIter.toNat) ∧
      (1 ≤ f.updates → Recorded fp shock dlfOf useDlf state max.mag f.pressure f.dlf f.error) := by
  unfold maxInitialPressureR at h
  split at h
  · cases h
  · simp only [bind_eq_ok] at h
    obtain ⟨s, -, d, -, h⟩ := h
    split at h
    · cases h
    · obtain ⟨-, a, b, c⟩ := searchR_out _ h (fun hk => absurd hk (by omega))
      exact ⟨by omega, by simpa using b, c⟩

/-- C123: in floating point too, when the search stops on its tolerance after at least one update, the selected state's
pressure times the load factor at the returned initial pressure is within the tolerance of the limit, up to three
roundings. -/
theorem C123_within_limit (H : fp.Accurate u κ)
    (h : maxInitialPressureR fp reg shock dlfOf max useDlf tol maxIter state = .ok f)
    (m0 : 0 < max.mag) (hk : 1 ≤ f.updates) (herr : f.updates < maxIter.toNat) :
    ∃ s, shock f.pressure = .ok s ∧ (if useDlf = true then dlfOf s.cjSpeed = .ok f.dlf else f.dlf = 1) ∧
      |(if state = "cj" then s.cjP else s.reflectedP) * f.dlf - max.mag| ≤ (|tol| + u) / (1 - u) ^ 3 * max.mag := by
  obtain ⟨-, a, b⟩ := out h
  obtain ⟨s, e, e', e''⟩ := b hk
  refine ⟨s, e, e', ?_⟩
  have ht : |f.error| ≤ |tol| := a.resolve_right (by omega)
  change |s.selected state * f.dlf - max.mag| ≤ _
  set x := s.selected state * f.dlf
  set m := max.mag
  have u0 := H.nonneg; have u1 := H.lt_one
  set a1 := fp.rnd x with ha1
  set a2 := fp.rnd (a1 - m) with ha2
  have r1 := H.rnd x
  have r2 := H.rnd (a1 - m)
  have r3 := H.rnd (a2 / m)
  rw [← e''] at r3
  rw [← ha1] at r1
  rw [← ha2] at r2
  -- |y| (1 - u) ≤ |rnd y|
  have low : ∀ y z : ℝ, |z - y| ≤ u * |y| → (1 - u) * |y| ≤ |z| := by
    intro y z hz
    have := abs_sub_abs_le_abs_sub y z
    rw [abs_sub_comm] at this
    linarith
  have l1 := low _ _ r1
  have l2 := low _ _ r2
  have l3 := low _ _ r3
  rw [abs_div, abs_of_pos m0] at l3
  have v0 : 0 < 1 - u := by linarith
  have h3 : (1 - u) * |a2| ≤ |tol| * m := by
    have : (1 - u) * (|a2| / m) ≤ |tol| := l3.trans ht
    calc (1 - u) * |a2| = ((1 - u) * (|a2| / m)) * m := by field_simp
      _ ≤ _ := mul_le_mul_of_nonneg_right this m0.le
  have h2 : (1 - u) ^ 2 * |a1 - m| ≤ |tol| * m := by
    calc (1 - u) ^ 2 * |a1 - m| = (1 - u) * ((1 - u) * |a1 - m|) := by ring
      _ ≤ (1 - u) * |a2| := mul_le_mul_of_nonneg_left l2 v0.le
      _ ≤ _ := h3
  have hx : |x| ≤ |x - m| + m := by
    have := abs_add_le (x - m) m
    rw [sub_add_cancel, abs_of_pos m0] at this
    exact this
  have h1 : (1 - u) * |x - m| ≤ |a1 - m| + u * m := by
    have h4 := abs_add_le (x - a1) (a1 - m)
    rw [sub_add_sub_cancel, abs_sub_comm x a1] at h4
    have : u * |x| ≤ u * (|x - m| + m) := mul_le_mul_of_nonneg_left hx u0
    linarith
  rw [div_mul_eq_mul_div, le_div_iff₀ (by positivity)]
  have hv1 : (1 - u) ^ 2 ≤ 1 := pow_le_one₀ v0.le (by linarith)
  calc |x - m| * (1 - u) ^ 3 = (1 - u) ^ 2 * ((1 - u) * |x - m|) := by ring
    _ ≤ (1 - u) ^ 2 * (|a1 - m| + u * m) := mul_le_mul_of_nonneg_left h1 (by positivity)
    _ = (1 - u) ^ 2 * |a1 - m| + (1 - u) ^ 2 * (u * m) := by ring
    _ ≤ |tol| * m + 1 * (u * m) := add_le_add h2 (mul_le_mul_of_nonneg_right hv1 (by positivity))
    _ = _ := by ring

/-! ### A gas that is proportional up to a relative error -/

/-- A gas whose reflected pressure is `k` times the initial pressure up to a relative error of `ε` (of the gas
calculation, rounding included), and whose load factor does not change. -/
structure NearlyProportional (shock : Quantity → Py Shock) (dlfOf : Quantity → Py ℝ) (k δ ε : ℝ) : Prop where
  run : ∀ p P r, HasVal p Dim.pressure P r → 0 < P →
    ∃ s, shock p = .ok s ∧ |s.reflectedP - k * P| ≤ ε * (k * P) ∧ dlfOf s.cjSpeed = .ok δ
  k0 : 0 < k
  δ1 : 1 ≤ δ
  δ4 : δ ≤ 4

variable {k δ ε : ℝ}

theorem near_bounds (h0 : 0 ≤ u) (h1 : u ≤ 1 / 100) {x y : ℝ} (x0 : 0 < x) (h : Near u 3 x y) :
    |y - x| ≤ 3.1 * u * x := by
  have := Near.bound h0 (by linarith) (by push_cast; linarith) h
  rw [abs_of_pos x0] at this
  refine this.trans (mul_le_mul_of_nonneg_right ?_ x0.le)
  push_cast
  rw [div_le_iff₀ (by linarith)]
  nlinarith

/-- The update, from a pressure `P` with reflected pressure `R`. -/
theorem updateR (H : fp.Accurate u κ) {p : Quantity} {P R d m : ℝ} {r : ℕ} (hp : HasVal p Dim.pressure P r) (P0 : 0 < P)
    (R0 : 0 < R) (d0 : 0 < d) (m0 : 0 < m) :
    ∃ p1 p2 P2, scaleR fp m p = .ok p1 ∧ p1.divNumR fp (fp.rnd (d * R)) = .ok p2 ∧ HasVal p2 Dim.pressure P2 r ∧
      Near u 3 (m / d * (P / R)) P2 := by
  have u0 := H.nonneg; have u1 := H.lt_one
  have h0 : NearVal u 0 p Dim.pressure P r := ⟨hp.dim, hp.off, by rw [hp.val]; exact Near.refl u P, hp.reg⟩
  obtain ⟨p1, e1, n1, -⟩ := scaleR_spec H (Near.refl u m) h0
  have hb : Near u 1 (d * R) (fp.rnd (d * R)) := H.round (Near.refl u _)
  have bp : 0 < fp.rnd (d * R) := Near.pos u0 u1 (by positivity) hb
  have o1 : noOffset p1 = .ok () := if_pos n1.off
  refine ⟨p1, ⟨fp.rnd (p1.mag / fp.rnd (d * R)), p1.unit, p1.reg⟩,
    fp.rnd (p1.mag / fp.rnd (d * R)) * p1.unit.scale, e1, ?_, ⟨n1.dim, n1.off, rfl, n1.reg⟩, ?_⟩
  · simp only [divNumR, o1, ok_bind, if_neg bp.ne']
  · have h1 := Near.div u0 u1 n1.val hb
    have sc := p1.unit.pos
    have h2 : Near u 2 (m / d * (P / R) / p1.unit.scale) (p1.mag / fp.rnd (d * R)) := by
      have h3 := Near.div u0 u1 h1 (Near.refl u p1.unit.scale)
      have a : m * P / (d * R) / p1.unit.scale = m / d * (P / R) / p1.unit.scale := by field_simp
      have b : p1.mag * p1.unit.scale / fp.rnd (d * R) / p1.unit.scale = p1.mag / fp.rnd (d * R) := by
        field_simp
      rw [a, b] at h3
      exact h3
    have h3 := Near.mul u0 u1 (H.round h2) (Near.refl u p1.unit.scale)
    have a : m / d * (P / R) / p1.unit.scale * p1.unit.scale = m / d * (P / R) := by field_simp
    rw [a] at h3
    exact h3

/-- After an update with load factor `d`, reflected pressure times `d` is close to `m`. -/
theorem after_update (u0 : 0 ≤ u) (u1 : u ≤ 1 / 100) (e0 : 0 ≤ ε) (e1 : ε ≤ 1 / 100) (k0 : 0 < k) {P R P2 R2 d m : ℝ}
    (P0 : 0 < P) (d0 : 0 < d) (m0 : 0 < m) (hR : |R - k * P| ≤ ε * (k * P))
    (hn : Near u 3 (m / d * (P / R)) P2) (hR2 : |R2 - k * P2| ≤ ε * (k * P2)) :
    0 < R ∧ 0 < P2 ∧ |P2 - m / (d * k)| ≤ (1.1 * ε + 4 * u) * (m / (d * k)) ∧
      |R2 * d - m| ≤ (2.03 * ε + 3.2 * u) * m := by
  have kP : 0 < k * P := by positivity
  obtain ⟨l, r⟩ := abs_le.1 hR
  have R0 : 0 < R := by nlinarith
  have q0 : 0 < m / d * (P / R) := by positivity
  have hb := near_bounds u0 u1 q0 hn
  have P20 : 0 < P2 := Near.pos u0 (by linarith) q0 hn
  -- P2 k d / m lies close to 1
  set w := k * P / R with hw
  have w0 : 0 < w := by positivity
  have hwR : w * R = k * P := by rw [hw]; field_simp
  have w1 : |w - 1| ≤ 1.0102 * ε := by
    have e : w - 1 = (k * P - R) / R := by rw [hw]; field_simp
    rw [e, abs_div, abs_of_pos R0, div_le_iff₀ R0, abs_sub_comm]
    have : 0.99 * (k * P) ≤ R := by nlinarith
    nlinarith
  have eq : m / d * (P / R) = m / (d * k) * w := by rw [hw]; field_simp
  set t := m / (d * k) with ht
  have t0 : 0 < t := by positivity
  rw [eq] at hb
  obtain ⟨wl, wr⟩ := abs_le.1 w1
  obtain ⟨bl, br⟩ := abs_le.1 hb
  have hP2 : |P2 - t| ≤ (1.0102 * ε + 3.14 * u) * t := by
    have : P2 - t = (P2 - t * w) + t * (w - 1) := by ring
    rw [this]
    have h1 : |t * (w - 1)| ≤ t * (1.0102 * ε) := by
      rw [abs_mul, abs_of_pos t0]; exact mul_le_mul_of_nonneg_left w1 t0.le
    have h2 : 3.1 * u * (t * w) ≤ 3.14 * u * t := by
      have : w ≤ 1.011 := by linarith
      have h3 : 0 ≤ u * t := by positivity
      nlinarith
    have := abs_add_le (P2 - t * w) (t * (w - 1))
    nlinarith
  refine ⟨R0, P20, hP2.trans ?_, ?_⟩
  · exact mul_le_mul_of_nonneg_right (by linarith) t0.le
  · have hm : t * k * d = m := by rw [ht]; field_simp
    have h1 : |k * P2 * d - m| ≤ (1.0102 * ε + 3.14 * u) * m := by
      have : k * P2 * d - m = (P2 - t) * (k * d) := by rw [← hm]; ring
      rw [this, abs_mul, abs_of_pos (show 0 < k * d by positivity), ← hm]
      calc |P2 - t| * (k * d) ≤ (1.0102 * ε + 3.14 * u) * t * (k * d) :=
            mul_le_mul_of_nonneg_right hP2 (by positivity)
        _ = _ := by ring
    have h2 : |R2 * d - k * P2 * d| ≤ ε * (k * P2 * d) := by
      have : R2 * d - k * P2 * d = (R2 - k * P2) * d := by ring
      rw [this, abs_mul, abs_of_pos d0]
      calc |R2 - k * P2| * d ≤ ε * (k * P2) * d := mul_le_mul_of_nonneg_right hR2 d0.le
        _ = _ := by ring
    obtain ⟨a, b⟩ := abs_le.1 h1
    have h3 : k * P2 * d ≤ (1 + (1.0102 * ε + 3.14 * u)) * m := by linarith
    have h4 := abs_add_le (R2 * d - k * P2 * d) (k * P2 * d - m)
    rw [sub_add_sub_cancel] at h4
    have h5 : ε * (k * P2 * d) ≤ ε * ((1 + (1.0102 * ε + 3.14 * u)) * m) := mul_le_mul_of_nonneg_left h3 e0
    have h6 : ε * ((1 + (1.0102 * ε + 3.14 * u)) * m) ≤ (1.0102 * ε + 0.0314 * u) * m := by
      have : ε * (1 + (1.0102 * ε + 3.14 * u)) ≤ 1.0102 * ε + 0.0314 * u := by nlinarith
      calc ε * ((1 + (1.0102 * ε + 3.14 * u)) * m) = ε * (1 + (1.0102 * ε + 3.14 * u)) * m := by ring
        _ ≤ _ := mul_le_mul_of_nonneg_right this m0.le
    nlinarith

/-- The error computed for a value close to the limit is small. -/
theorem small_error (H : fp.Accurate u κ) (u1 : u ≤ 1 / 100) (e0 : 0 ≤ ε) (e1 : ε ≤ 1 / 100) {x m : ℝ} (m0 : 0 < m)
    (h : |x - m| ≤ (2.03 * ε + 3.2 * u) * m) :
    |fp.rnd (fp.rnd (fp.rnd x - m) / m)| ≤ 2.1 * ε + 5 * u := by
  have u0 := H.nonneg
  have up : ∀ y, |fp.rnd y| ≤ (1 + u) * |y| := fun y => by
    have := H.rnd y
    have := abs_add_le (fp.rnd y - y) y
    rw [sub_add_cancel] at this
    linarith
  have hx : |x| ≤ (1 + (2.03 * ε + 3.2 * u)) * m := by
    have := abs_add_le (x - m) m
    rw [sub_add_cancel, abs_of_pos m0] at this
    linarith
  have h1 : |fp.rnd x - m| ≤ (2.03 * ε + 4.3 * u) * m := by
    have h2 := abs_add_le (fp.rnd x - x) (x - m)
    rw [sub_add_sub_cancel] at h2
    have h3 := H.rnd x
    have h4 : u * |x| ≤ u * ((1 + (2.03 * ε + 3.2 * u)) * m) := mul_le_mul_of_nonneg_left hx u0
    have h5 : u * (1 + (2.03 * ε + 3.2 * u)) ≤ 1.1 * u := by nlinarith
    have h6 : u * ((1 + (2.03 * ε + 3.2 * u)) * m) ≤ 1.1 * u * m := by
      calc u * ((1 + (2.03 * ε + 3.2 * u)) * m) = u * (1 + (2.03 * ε + 3.2 * u)) * m := by ring
        _ ≤ _ := mul_le_mul_of_nonneg_right h5 m0.le
    nlinarith
  have h2 : |fp.rnd (fp.rnd x - m) / m| ≤ (1 + u) * (2.03 * ε + 4.3 * u) := by
    rw [abs_div, abs_of_pos m0, div_le_iff₀ m0]
    calc |fp.rnd (fp.rnd x - m)| ≤ (1 + u) * |fp.rnd x - m| := up _
      _ ≤ (1 + u) * ((2.03 * ε + 4.3 * u) * m) := mul_le_mul_of_nonneg_left h1 (by linarith)
      _ = _ := by ring
  calc _ ≤ (1 + u) * |fp.rnd (fp.rnd x - m) / m| := up _
    _ ≤ (1 + u) * ((1 + u) * (2.03 * ε + 4.3 * u)) := mul_le_mul_of_nonneg_left h2 (by linarith)
    _ ≤ _ := by
      have : (1 + u) * (1 + u) ≤ 1.0201 := by nlinarith
      have h3 : 0 ≤ 2.03 * ε + 4.3 * u := by positivity
      nlinarith

/-- The error computed for a value well below the limit is large. -/
theorem large_error (H : fp.Accurate u κ) (u1 : u ≤ 1 / 100) {x m : ℝ} (m0 : 0 < m) (x0 : 0 ≤ x) (h : x ≤ 0.55 * m) :
    0.4 < |fp.rnd (fp.rnd (fp.rnd x - m) / m)| := by
  have u0 := H.nonneg
  have low : ∀ y : ℝ, (1 - u) * |y| ≤ |fp.rnd y| := fun y => by
    have h1 := H.rnd y
    have := abs_sub_abs_le_abs_sub y (fp.rnd y)
    rw [abs_sub_comm] at this
    linarith
  have h1 := abs_le.1 (H.rnd x)
  rw [abs_of_nonneg x0] at h1
  have h2 : 0.444 * m ≤ |fp.rnd x - m| := by
    have : fp.rnd x ≤ 0.556 * m := by nlinarith
    rw [abs_sub_comm]
    exact le_trans (by linarith) (le_abs_self _)
  have h3 : 0.99 * 0.444 ≤ |fp.rnd (fp.rnd x - m) / m| := by
    rw [abs_div, abs_of_pos m0, le_div_iff₀ m0]
    have := low (fp.rnd x - m)
    nlinarith [abs_nonneg (fp.rnd x - m)]
  have := low (fp.rnd (fp.rnd x - m) / m)
  nlinarith

/-- So is the first error, which compares the number of atmospheres with the limit. -/
theorem first_error (H : fp.Accurate u κ) (u1 : u ≤ 1 / 100) {m : ℝ} (d1 : 1 ≤ δ) (d4 : δ ≤ 4) (hm : 8 ≤ m) :
    0.4 < |fp.rnd (fp.rnd (fp.rnd (1 * δ) / m) - 1)| := by
  have u0 := H.nonneg
  have m0 : 0 < m := by linarith
  have low : ∀ y : ℝ, (1 - u) * |y| ≤ |fp.rnd y| := fun y => by
    have h1 := H.rnd y
    have := abs_sub_abs_le_abs_sub y (fp.rnd y)
    rw [abs_sub_comm] at this
    linarith
  have h1 := abs_le.1 (H.rnd (1 * δ))
  rw [one_mul, abs_of_pos (by linarith : 0 < δ)] at h1
  have a1 : fp.rnd (1 * δ) ≤ 4.04 := by rw [one_mul]; nlinarith
  have a0 : 0 ≤ fp.rnd (1 * δ) := by rw [one_mul]; nlinarith
  have b1 : fp.rnd (1 * δ) / m ≤ 0.505 := by rw [div_le_iff₀ m0]; linarith
  have b0 : 0 ≤ fp.rnd (1 * δ) / m := by positivity
  have h2 := abs_le.1 (H.rnd (fp.rnd (1 * δ) / m))
  rw [abs_of_nonneg b0] at h2
  have c1 : fp.rnd (fp.rnd (1 * δ) / m) ≤ 0.5101 := by nlinarith
  have h3 : 0.4899 ≤ |fp.rnd (fp.rnd (1 * δ) / m) - 1| := by
    rw [abs_sub_comm]
    exact le_trans (by linarith) (le_abs_self _)
  have := low (fp.rnd (fp.rnd (1 * δ) / m) - 1)
  nlinarith

/-- C123: for a gas whose reflected pressure is proportional to the initial pressure up to a relative error `ε`, and
whose load factor does not change, the search in floating point stops after one update if the tolerance is at least
`2.1 ε + 5 u` (and at most 0.4, the limit being at least 8 Pa): with the pressure `max / (δ k)` within `1.1 ε + 4 u`,
and the reflected pressure times the load factor within `2.03 ε + 3.2 u` of the limit. -/
theorem C123_converges (H : fp.Accurate u κ) (u1 : u ≤ 1 / 100) (hg : NearlyProportional shock dlfOf k δ ε) (e0 : 0 ≤ ε)
    (e1 : ε ≤ 1 / 100) (hm : 8 ≤ max.mag) (ht : 2.1 * ε + 5 * u ≤ |tol|) (ht' : |tol| ≤ 0.4) (hit : 1 ≤ maxIter) :
    ∃ f P, maxInitialPressureR fp reg shock dlfOf max true tol maxIter "reflected" = .ok f ∧ f.updates = 1 ∧ f.dlf = δ ∧
      HasVal f.pressure Dim.pressure P reg.id ∧
      |P - max.mag / (δ * k)| ≤ (1.1 * ε + 4 * u) * (max.mag / (δ * k)) ∧
      ∃ s, shock f.pressure = .ok s ∧ |s.reflectedP * δ - max.mag| ≤ (2.03 * ε + 3.2 * u) * max.mag := by
  have u0 := H.nonneg
  have m0 : 0 < max.mag := by linarith
  have δ0 : 0 < δ := by linarith [hg.δ1]
  have hv : HasVal (⟨1, PUnit.atm, reg.id⟩ : Quantity) Dim.pressure PUnit.atm.scale reg.id :=
    ⟨rfl, rfl, by simp, rfl⟩
  have A0 := PUnit.atm.pos
  obtain ⟨s, hs, hR, hd⟩ := hg.run _ _ _ hv A0
  have R0 : 0 < s.reflectedP := by
    have kP : 0 < k * PUnit.atm.scale := mul_pos hg.k0 A0
    have := (abs_le.1 hR).1
    nlinarith
  obtain ⟨p1, p2, P2, q1, q2, v2, n2⟩ := updateR H hv A0 R0 δ0 m0
  have P20 : 0 < P2 := Near.pos u0 H.lt_one (by have := hg.k0; positivity) n2
  obtain ⟨s2, hs2, hR2, hd2⟩ := hg.run _ _ _ v2 P20
  obtain ⟨-, -, b1, b2⟩ := after_update u0 u1 e0 e1 hg.k0 A0 δ0 m0 hR n2 hR2
  obtain ⟨N, hN⟩ : ∃ N, maxIter.toNat = N + 1 := ⟨maxIter.toNat - 1, by omega⟩
  have big := first_error H u1 hg.δ1 hg.δ4 hm
  have sm := small_error H u1 e0 e1 m0 b2
  refine ⟨⟨p2, δ, fp.rnd (fp.rnd (fp.rnd (s2.reflectedP * δ) - max.mag) / max.mag), 1,
    [⟨1, PUnit.atm, reg.id⟩, p2]⟩, P2, ?_, rfl, rfl, v2, b1, s2, hs2, b2⟩
  have g1 : ¬ ("reflected" ≠ "reflected" ∧ "reflected" ≠ "cj") := by simp
  simp only [maxInitialPressureR, if_neg g1, hs, ok_bind, hd, if_neg m0.ne', hN]
  rw [searchR, if_pos (lt_of_le_of_lt ht' big)]
  simp only [q1, q2, ok_bind, hs2, loopDlf, if_true, hd2, if_neg m0.ne', Shock.selected, if_neg (by decide : ¬ "reflected" = "cj")]
  cases N with
  | zero => rfl
  | succ N => rw [searchR, if_neg (not_lt.2 (sm.trans ht))]; rfl

/-- C123 without the dynamic load factor: at most two updates (the load factor, 1, 2 or 4, is still used in the first
one). -/
theorem C123_converges_without_dlf (H : fp.Accurate u κ) (u1 : u ≤ 1 / 100) (hg : NearlyProportional shock dlfOf k δ ε)
    (hδ : δ = 1 ∨ 2 ≤ δ) (e0 : 0 ≤ ε) (e1 : ε ≤ 1 / 100) (hm : 8 ≤ max.mag) (ht : 2.1 * ε + 5 * u ≤ |tol|)
    (ht' : |tol| ≤ 0.4) (hit : 2 ≤ maxIter) :
    ∃ f P, maxInitialPressureR fp reg shock dlfOf max false tol maxIter "reflected" = .ok f ∧ f.updates ≤ 2 ∧ f.dlf = 1 ∧
      HasVal f.pressure Dim.pressure P reg.id ∧ |P - max.mag / k| ≤ (1.1 * ε + 4 * u) * (max.mag / k) ∧
      ∃ s, shock f.pressure = .ok s ∧ |s.reflectedP - max.mag| ≤ (2.03 * ε + 3.2 * u) * max.mag := by
  have u0 := H.nonneg
  have m0 : 0 < max.mag := by linarith
  have δ0 : 0 < δ := by linarith [hg.δ1]
  have hv : HasVal (⟨1, PUnit.atm, reg.id⟩ : Quantity) Dim.pressure PUnit.atm.scale reg.id :=
    ⟨rfl, rfl, by simp, rfl⟩
  have A0 := PUnit.atm.pos
  have Rpos : ∀ {P R : ℝ}, 0 < P → |R - k * P| ≤ ε * (k * P) → 0 < R := fun {P R} P0 hR => by
    have kP : 0 < k * P := mul_pos hg.k0 P0
    have := (abs_le.1 hR).1
    nlinarith
  obtain ⟨s, hs, hR, hd⟩ := hg.run _ _ _ hv A0
  have R0 := Rpos A0 hR
  obtain ⟨p1, p2, P2, q1, q2, v2, n2⟩ := updateR H hv A0 R0 δ0 m0
  have P20 : 0 < P2 := Near.pos u0 H.lt_one (by have := hg.k0; positivity) n2
  obtain ⟨s2, hs2, hR2, -⟩ := hg.run _ _ _ v2 P20
  obtain ⟨-, -, b1, b2⟩ := after_update u0 u1 e0 e1 hg.k0 A0 δ0 m0 hR n2 hR2
  obtain ⟨N, hN⟩ : ∃ N, maxIter.toNat = N + 2 := ⟨maxIter.toNat - 2, by omega⟩
  have big := first_error H u1 hg.δ1 hg.δ4 hm
  have g1 : ¬ ("reflected" ≠ "reflected" ∧ "reflected" ≠ "cj") := by simp
  have ncj : ¬ ("reflected" : String) = "cj" := by decide
  have step : maxInitialPressureR fp reg shock dlfOf max false tol maxIter "reflected" =
      searchR fp shock dlfOf false "reflected" max.mag |tol| (N + 1) p2 s2 1
        (fp.rnd (fp.rnd (fp.rnd (s2.reflectedP * 1) - max.mag) / max.mag)) 1 [⟨1, PUnit.atm, reg.id⟩, p2] := by
    simp only [maxInitialPressureR, if_neg g1, hs, ok_bind, hd, if_neg m0.ne', hN]
    rw [searchR, if_pos (lt_of_le_of_lt ht' big)]
    simp only [q1, q2, ok_bind, hs2, loopDlf, Bool.false_eq_true, if_false, if_neg m0.ne', Shock.selected, if_neg ncj]
    rfl
  rcases hδ with rfl | hδ
  · have sm := small_error H u1 e0 e1 m0 b2
    rw [mul_one] at b2
    refine ⟨_, P2, step.trans (by rw [searchR, if_neg (not_lt.2 (sm.trans ht))]), one_le_two, rfl, v2, ?_, s2, hs2, b2⟩
    rwa [one_mul] at b1
  · have R20 := Rpos P20 hR2
    have half : s2.reflectedP * 1 ≤ 0.55 * max.mag := by
      have h1 := (abs_le.1 b2).2
      have h2 : s2.reflectedP * 2 ≤ s2.reflectedP * δ := mul_le_mul_of_nonneg_left hδ R20.le
      have h3 : (2.03 * ε + 3.2 * u) * max.mag ≤ 0.0523 * max.mag := mul_le_mul_of_nonneg_right (by linarith) m0.le
      linarith
    have lg := large_error H u1 m0 (by linarith) half
    obtain ⟨p3, p4, P4, q3, q4, v4, n4⟩ := updateR H v2 P20 R20 one_pos m0
    have P40 : 0 < P4 := Near.pos u0 H.lt_one (by positivity) n4
    obtain ⟨s4, hs4, hR4, -⟩ := hg.run _ _ _ v4 P40
    obtain ⟨-, -, b3, b4⟩ := after_update u0 u1 e0 e1 hg.k0 P20 one_pos m0 hR2 n4 hR4
    have sm := small_error H u1 e0 e1 m0 b4
    refine ⟨⟨p4, 1, fp.rnd (fp.rnd (fp.rnd (s4.reflectedP * 1) - max.mag) / max.mag), 2,
      [⟨1, PUnit.atm, reg.id⟩, p2] ++ [p4]⟩, P4, step.trans ?_, le_refl 2, rfl, v4, by rwa [one_mul] at b3, s4, hs4,
      by rwa [mul_one] at b4⟩
    rw [searchR, if_pos (lt_of_le_of_lt ht' lg)]
    simp only [q3, q4, ok_bind, hs4, loopDlf, Bool.false_eq_true, if_false, if_neg m0.ne', Shock.selected, if_neg ncj]
    cases N with
    | zero => rfl
    | succ N => rw [searchR, if_neg (not_lt.2 (sm.trans ht))]

/-- The hypotheses are met: double precision, a gas calculation that is right to three digits (it returns 15.003 times the
pressure instead of 15 times), load factor 2, limit 15 MPa, tolerance 0.01. -/
example : ∃ f P, maxInitialPressureR FP.double exReg
      (fun p => .ok ⟨⟨2000, PUnit.meterPerSecond, 5⟩, 7 * p.phys, 15.003 * p.phys⟩) (fun _ => .ok 2)
      ⟨15000000, PUnit.pascal, 5⟩ true 0.01 500 "reflected" = .ok f ∧ f.updates = 1 ∧
    HasVal f.pressure Dim.pressure P exReg.id ∧ |P - 500000| ≤ 120 := by
  obtain ⟨f, P, a, b, -, c, d, -⟩ := C123_converges (reg := exReg) (max := ⟨15000000, PUnit.pascal, 5⟩) (tol := 0.01)
    (maxIter := 500) (k := 15) (δ := 2) (ε := 0.0002) FP.double_accurate (by norm_num)
    (shock := fun p => .ok ⟨⟨2000, PUnit.meterPerSecond, 5⟩, 7 * p.phys, 15.003 * p.phys⟩) (dlfOf := fun _ => .ok 2)
    ⟨fun p P r h P0 => ⟨_, rfl, by
      have : p.phys = P := by simp [phys, h.off, h.val]
      simp only [this]
      rw [show 15.003 * P - 15 * P = 0.003 * P by ring, abs_of_pos (by positivity)]
      linarith, rfl⟩, by norm_num, by norm_num, by norm_num⟩ (by norm_num) (by norm_num) (by norm_num)
    (by rw [abs_of_pos] <;> norm_num) (by rw [abs_of_pos] <;> norm_num) (by norm_num)
  refine ⟨f, P, a, b, c, ?_⟩
  norm_num at d ⊢
  linarith

end Pypbomb.Tube
