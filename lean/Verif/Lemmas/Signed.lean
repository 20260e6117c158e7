/-
Rounding errors of differences: a number that is a difference `P - M` of non-negative numbers, each known up to `n` roundings.
-/
import Verif.Model.RoundedBolt
import Verif.Props.RoundedTube

namespace Pypbomb

/-- `x` is `P - M` with `P` and `M` each known up to `n` roundings. -/
def Signed (u : ℝ) (n : ℕ) (P M x : ℝ) : Prop := ∃ p m, Near u n P p ∧ Near u n M m ∧ x = p - m

namespace Signed

variable {u P M x : ℝ} {n : ℕ}

/-- Without too much cancellation a difference is known up to `2 A n` roundings. -/
theorem resolve (h0 : 0 ≤ u) (h1 : u < 1) {A : ℕ} (hA : 1 ≤ A) (hM : 0 ≤ M) (hlt : M < P)
    (hc : P + M ≤ A * (P - M)) (hu : ((4 * A * n : ℕ) : ℝ) * u ≤ 1) (h : Signed u n P M x) :
    Near u (2 * A * n) (P - M) x := by
  obtain ⟨p, m, ⟨θ, a1, a2, rfl⟩, ⟨φ, b1, b2, rfl⟩, rfl⟩ := h
  have hd : 0 < P - M := by linarith
  have hP : 0 < P := by linarith
  have hρ := Near.pow_bounds h0 h1 n
  have hB := bernoulli h1 n
  have hk := Near.pow_bounds h0 h1 (2 * A * n)
  -- (1 - u)^k (1 + k u) ≤ 1
  have hkB : (1 - u) ^ (2 * A * n) * (1 + ((2 * A * n : ℕ) : ℝ) * u) ≤ 1 := by
    have h2 : 1 + ((2 * A * n : ℕ) : ℝ) * u ≤ (1 + u) ^ (2 * A * n) := by
      have := one_add_mul_le_pow (show (-2 : ℝ) ≤ u by linarith) (2 * A * n)
      linarith
    calc (1 - u) ^ (2 * A * n) * (1 + ((2 * A * n : ℕ) : ℝ) * u)
        ≤ (1 - u) ^ (2 * A * n) * (1 + u) ^ (2 * A * n) := mul_le_mul_of_nonneg_left h2 hk.1.le
      _ = ((1 - u) * (1 + u)) ^ (2 * A * n) := (mul_pow _ _ _).symm
      _ ≤ 1 := pow_le_one₀ (by nlinarith) (by nlinarith)
  unfold Near
  push_cast at hu hkB
  generalize (1 - u) ^ (2 * A * n) = R at *
  generalize (1 - u) ^ n = ρ at *
  have hA1 : (1 : ℝ) ≤ A := by exact_mod_cast hA
  have hn0 : (0 : ℝ) ≤ n := Nat.cast_nonneg n
  generalize (A : ℝ) = a at *
  set w : ℝ := a * n * u with hw
  have hw0 : 0 ≤ w := by positivity
  have hw4 : 4 * w ≤ 1 := by rw [hw]; linarith
  have hnw : (n : ℝ) * u ≤ w := by rw [hw]; nlinarith [mul_nonneg hn0 h0]
  have hR : R * (1 + 2 * w) ≤ 1 := by rw [hw]; linarith
  have hρw : a * (1 - ρ) ≤ w := by
    have : 1 - ρ ≤ n * u := by linarith
    calc a * (1 - ρ) ≤ a * (n * u) := mul_le_mul_of_nonneg_left this (by linarith)
      _ = w := by rw [hw]; ring
  have hρ2 : 1 - w ≤ ρ := by linarith
  -- bounds of the difference
  have up : ρ * (P * θ - M * φ) ≤ (P - M) * (ρ + a * (1 - ρ)) := by
    have e1 : ρ * (P * θ) ≤ P := by nlinarith
    have e2 : M * ρ ≤ M * φ := mul_le_mul_of_nonneg_left b1 hM
    have e3 : M * ρ * ρ ≤ ρ * (M * φ) := by nlinarith [hρ.1]
    have e4 : (P + M) * (1 - ρ) ≤ a * (P - M) * (1 - ρ) := mul_le_mul_of_nonneg_right hc (by linarith)
    nlinarith [mul_nonneg hM (mul_nonneg (by linarith [hρ.2] : 0 ≤ 1 - ρ) (by linarith [hρ.2] : 0 ≤ 1 - ρ))]
  have lo : (P - M) * (ρ - a * (1 - ρ)) ≤ ρ * (P * θ - M * φ) := by
    have e1 : ρ * (M * φ) ≤ M := by nlinarith
    have e2 : P * ρ ≤ P * θ := mul_le_mul_of_nonneg_left a1 hP.le
    have e3 : P * ρ * ρ ≤ ρ * (P * θ) := by nlinarith [hρ.1]
    have e4 : (P + M) * (1 - ρ) ≤ a * (P - M) * (1 - ρ) := mul_le_mul_of_nonneg_right hc (by linarith)
    nlinarith [mul_nonneg hP.le (mul_nonneg (by linarith [hρ.2] : 0 ≤ 1 - ρ) (by linarith [hρ.2] : 0 ≤ 1 - ρ))]
  have hR2 : R * ρ ≤ ρ - a * (1 - ρ) := by
    have f1 : R ≤ 1 - w / (1 - w) := by
      rw [le_sub_comm, div_le_iff₀ (by linarith)]
      have : 0 ≤ 1 + 2 * w := by linarith
      nlinarith
    have f2 : w ≤ w / (1 - w) * ρ := by
      rw [div_mul_eq_mul_div, le_div_iff₀ (by linarith)]
      nlinarith
    nlinarith [hρ.1]
  have hR3 : (ρ + a * (1 - ρ)) * R ≤ ρ := by
    have f0 : ρ + w ≤ ρ * (1 + 2 * w) := by
      have : w * 1 ≤ w * (2 * ρ) := mul_le_mul_of_nonneg_left (by linarith) hw0
      linarith
    have f1 : (ρ + w) * R ≤ ρ * (1 + 2 * w) * R := mul_le_mul_of_nonneg_right f0 hk.1.le
    have f2 : ρ * (R * (1 + 2 * w)) ≤ ρ * 1 := mul_le_mul_of_nonneg_left hR hρ.1.le
    have f3 : (ρ + a * (1 - ρ)) * R ≤ (ρ + w) * R := mul_le_mul_of_nonneg_right (by linarith) hk.1.le
    linarith
  refine ⟨(P * θ - M * φ) / (P - M), ?_, ?_, by rw [mul_div_cancel₀ _ hd.ne']⟩
  · rw [le_div_iff₀ hd]
    have : ρ * (R * (P - M)) ≤ ρ * (P * θ - M * φ) := by
      have := mul_le_mul_of_nonneg_left hR2 hd.le
      linarith
    exact le_of_mul_le_mul_left this hρ.1
  · rw [div_mul_eq_mul_div, div_le_one hd]
    have : ρ * ((P * θ - M * φ) * R) ≤ ρ * (P - M) := by
      have f1 := mul_le_mul_of_nonneg_right up hk.1.le
      have f2 := mul_le_mul_of_nonneg_left hR3 hd.le
      linarith
    exact le_of_mul_le_mul_left this hρ.1

theorem mono (h0 : 0 ≤ u) (h1 : u < 1) {m : ℕ} (hnm : n ≤ m) (h : Signed u n P M x) : Signed u m P M x := by
  obtain ⟨p, q, a, b, e⟩ := h
  exact ⟨p, q, Near.mono h0 h1 hnm a, Near.mono h0 h1 hnm b, e⟩

theorem mul (h0 : 0 ≤ u) (h1 : u < 1) {m : ℕ} {k l : ℝ} (hk : Near u m k l) (h : Signed u n P M x) :
    Signed u (n + m) (k * P) (k * M) (l * x) := by
  obtain ⟨p, q, a, b, e⟩ := h
  refine ⟨l * p, l * q, ?_, ?_, by rw [e]; ring⟩
  · rw [add_comm]; exact Near.mul h0 h1 hk a
  · rw [add_comm]; exact Near.mul h0 h1 hk b

theorem add (h0 : 0 ≤ u) (h1 : u < 1) {m : ℕ} {k l : ℝ} (hk0 : 0 ≤ k) (hP : 0 ≤ P) (hk : Near u m k l) (h : Signed u n P M x) :
    Signed u (max m n) (k + P) M (l + x) := by
  obtain ⟨p, q, a, b, e⟩ := h
  exact ⟨l + p, q, Near.add h0 h1 hk0 hP hk a, Near.mono h0 h1 (le_max_right _ _) b, by rw [e]; ring⟩

theorem round {fp : FP} {κ : ℕ} (H : fp.Accurate u κ) (h : Signed u n P M x) : Signed u (n + 1) P M (fp.rnd x) := by
  obtain ⟨θ, a, b, e⟩ := H.round (Near.refl u x)
  have hθ : Near u 1 1 θ := ⟨θ, a, b, (one_mul θ).symm⟩
  have := h.mul H.nonneg H.lt_one hθ
  rw [one_mul, one_mul, mul_comm] at this
  rw [e]; exact this

end Signed

/-- A quantity of dimension `d` whose value in base units is `P - M`, each up to `n` roundings. -/
structure SignedVal (u : ℝ) (n : ℕ) (q : Quantity) (d : Dim) (P M : ℝ) (r : ℕ) : Prop where
  dim : q.unit.dim = d
  off : q.unit.offset = 0
  val : Signed u n P M (q.mag * q.unit.scale)
  reg : q.reg = r

namespace SignedVal

variable {u P M : ℝ} {n m r : ℕ} {q : Quantity} {d e : Dim}

theorem resolve {fp : FP} {κ : ℕ} (H : fp.Accurate u κ) {A : ℕ} (hA : 1 ≤ A) (hM : 0 ≤ M) (hlt : M < P)
    (hc : P + M ≤ A * (P - M)) (hu : ((4 * A * n : ℕ) : ℝ) * u ≤ 1) (h : SignedVal u n q d P M r) :
    NearVal u (2 * A * n) q d (P - M) r :=
  ⟨h.dim, h.off, Signed.resolve H.nonneg H.lt_one hA hM hlt hc hu h.val, h.reg⟩

theorem cast {P' M' : ℝ} (h : SignedVal u n q d P M r) (hd : d = e) (hP : P = P') (hM : M = M') (hn : n = m) :
    SignedVal u m q e P' M' r := by
  subst hd; subst hP; subst hM; subst hn; exact h

end SignedVal

namespace Quantity

variable {fp : FP} {u : ℝ} {κ n m r : ℕ} {a b : Quantity} {d e : Dim} {x y P M : ℝ}

theorem near_mag (h0 : 0 ≤ u) (h1 : u < 1) {n : ℕ} {x s z : ℝ} (hs : 0 < s) (h : Near u n x (z * s)) : Near u n (x / s) z := by
  have := Near.div h0 h1 h (Near.refl u s)
  rwa [mul_div_cancel_right₀ _ hs.ne', add_zero] at this

/-- A converted magnitude, before it is added. -/
theorem conv_near (H : fp.Accurate u κ) {w : PUnit} (hb : NearVal u m b d y r) (hw : w.dim = d) :
    Near u (m + κ + 1) (y / w.scale) (fp.rnd (b.mag * fp.conv b.unit w)) := by
  have h1 := near_mag H.nonneg H.lt_one b.unit.pos hb.val
  have h2 := Near.mul H.nonneg H.lt_one h1 (H.conv b.unit w (hb.dim.trans hw.symm))
  have e : y / b.unit.scale * (b.unit.scale / w.scale) = y / w.scale := by
    have := b.unit.pos.ne'; field_simp
  rw [e] at h2
  exact H.round h2

theorem subR_signed (H : fp.Accurate u κ) (ha : NearVal u n a d x r) (hb : NearVal u m b d y r) :
    ∃ c, a.subR fp b = .ok c ∧ SignedVal u (max n (m + κ + 1) + 1) c d x y r ∧ c.unit = a.unit := by
  have hreg : sameReg a b = .ok () := if_pos (ha.reg.trans hb.reg.symm)
  have o1 : noOffset a = .ok () := if_pos ha.off
  have o2 : noOffset b = .ok () := if_pos hb.off
  have hs := a.unit.pos
  refine ⟨⟨fp.rnd (a.mag - fp.rnd (b.mag * fp.conv b.unit a.unit)), a.unit, a.reg⟩, ?_, ⟨ha.dim, ha.off, ?_, ha.reg⟩, rfl⟩
  · simp only [subR, hreg, o1, o2, ok_bind, if_pos (ha.dim.trans hb.dim.symm)]
  · have h1 := near_mag H.nonneg H.lt_one hs ha.val
    have h2 := conv_near H hb ha.dim
    have h3 : Signed u (max n (m + κ + 1)) (x / a.unit.scale) (y / a.unit.scale)
        (a.mag - fp.rnd (b.mag * fp.conv b.unit a.unit)) :=
      ⟨_, _, Near.mono H.nonneg H.lt_one (le_max_left _ _) h1, Near.mono H.nonneg H.lt_one (le_max_right _ _) h2, rfl⟩
    have h4 := (h3.round H).mul H.nonneg H.lt_one (Near.refl u a.unit.scale)
    rw [mul_div_cancel₀ _ hs.ne', mul_div_cancel₀ _ hs.ne', mul_comm] at h4
    exact h4

theorem scaleR_signed (H : fp.Accurate u κ) {k k' : ℝ} {l : ℕ} (hk : Near u l k k') (ha : SignedVal u n a d P M r) :
    ∃ c, scaleR fp k' a = .ok c ∧ SignedVal u (n + l + 1) c d (k * P) (k * M) r ∧ c.unit = a.unit := by
  have o1 : noOffset a = .ok () := if_pos ha.off
  have hs := a.unit.pos
  refine ⟨⟨fp.rnd (k' * a.mag), a.unit, a.reg⟩, by simp only [scaleR, o1, ok_bind], ⟨ha.dim, ha.off, ?_, ha.reg⟩, rfl⟩
  have h1 := ha.val.mul H.nonneg H.lt_one (Near.refl u (a.unit.scale)⁻¹)
  have h2 := ((h1.mul H.nonneg H.lt_one hk).round H).mul H.nonneg H.lt_one (Near.refl u a.unit.scale)
  have e1 : a.unit.scale⁻¹ * (a.mag * a.unit.scale) = a.mag := by field_simp
  have e2 : ∀ z, a.unit.scale * (k * (a.unit.scale⁻¹ * z)) = k * z := fun z => by field_simp
  rw [e1, e2, e2, mul_comm a.unit.scale (fp.rnd _)] at h2
  exact h2.mono H.nonneg H.lt_one (by omega)

theorem mulR_signed (H : fp.Accurate u κ) (ha : NearVal u n a d x r) (hb : SignedVal u m b e P M r) :
    ∃ c, a.mulR fp b = .ok c ∧ SignedVal u (n + m + 1) c (d.mul e) (x * P) (x * M) r := by
  have hreg : sameReg a b = .ok () := if_pos (ha.reg.trans hb.reg.symm)
  have o1 : noOffset a = .ok () := if_pos ha.off
  have o2 : noOffset b = .ok () := if_pos hb.off
  have sa := a.unit.pos
  have sb := b.unit.pos
  refine ⟨⟨fp.rnd (a.mag * b.mag), a.unit.mul b.unit, a.reg⟩, by simp only [mulR, hreg, o1, o2, ok_bind], ?_, rfl, ?_, ha.reg⟩
  · change a.unit.dim.mul b.unit.dim = _
    rw [ha.dim, hb.dim]
  · have h0 := near_mag H.nonneg H.lt_one sa ha.val
    have h1 := hb.val.mul H.nonneg H.lt_one (Near.refl u (b.unit.scale)⁻¹)
    have h2 := ((h1.mul H.nonneg H.lt_one h0).round H).mul H.nonneg H.lt_one (Near.refl u (a.unit.scale * b.unit.scale))
    have e1 : b.unit.scale⁻¹ * (b.mag * b.unit.scale) = b.mag := by field_simp
    have e2 : ∀ z, a.unit.scale * b.unit.scale * (x / a.unit.scale * (b.unit.scale⁻¹ * z)) = x * z := fun z => by field_simp
    have e3 : a.unit.scale * b.unit.scale * fp.rnd (a.mag * b.mag) = fp.rnd (a.mag * b.mag) * (a.unit.scale * b.unit.scale) := mul_comm _ _
    rw [e1, e2, e2, e3] at h2
    exact h2.mono H.nonneg H.lt_one (by omega)

theorem addR_signed (H : fp.Accurate u κ) (hx : 0 ≤ x) (hP : 0 ≤ P) (ha : NearVal u n a d x r) (hb : SignedVal u m b d P M r) :
    ∃ c, a.addR fp b = .ok c ∧ SignedVal u (max n (m + κ + 1) + 1) c d (x + P) M r ∧ c.unit = a.unit := by
  have hreg : sameReg a b = .ok () := if_pos (ha.reg.trans hb.reg.symm)
  have o1 : noOffset a = .ok () := if_pos ha.off
  have o2 : noOffset b = .ok () := if_pos hb.off
  have sa := a.unit.pos
  have sb := b.unit.pos
  refine ⟨⟨fp.rnd (a.mag + fp.rnd (b.mag * fp.conv b.unit a.unit)), a.unit, a.reg⟩, ?_, ⟨ha.dim, ha.off, ?_, ha.reg⟩, rfl⟩
  · simp only [addR, hreg, o1, o2, ok_bind, if_pos (ha.dim.trans hb.dim.symm)]
  · have h0 := near_mag H.nonneg H.lt_one sa ha.val
    have h1 := hb.val.mul H.nonneg H.lt_one (Near.refl u (b.unit.scale)⁻¹)
    have h2 := (h1.mul H.nonneg H.lt_one (H.conv b.unit a.unit (hb.dim.trans ha.dim.symm))).round H
    have e1 : b.unit.scale⁻¹ * (b.mag * b.unit.scale) = b.mag := by field_simp
    have e2 : ∀ z, b.unit.scale / a.unit.scale * (b.unit.scale⁻¹ * z) = z / a.unit.scale := fun z => by field_simp
    rw [e1, e2, e2, mul_comm (fp.conv _ _) b.mag] at h2
    have h3 := ((h2.add H.nonneg H.lt_one (by positivity) (by positivity) h0).round H).mul H.nonneg H.lt_one
      (Near.refl u a.unit.scale)
    have e3 : a.unit.scale * (x / a.unit.scale + P / a.unit.scale) = x + P := by field_simp
    have e4 : a.unit.scale * (M / a.unit.scale) = M := by field_simp
    rw [e3, e4, mul_comm a.unit.scale (fp.rnd _)] at h3
    exact h3.mono H.nonneg H.lt_one (by omega)

theorem addNumR_signed (H : fp.Accurate u κ) {k : ℝ} (hk : 0 ≤ k) (hP : 0 ≤ P) (ha : SignedVal u n a Dim.one P M r) :
    ∃ c, addNumR fp k a = .ok c ∧ SignedVal u (n + κ + 3) c Dim.one (k + P) M r := by
  have sa := a.unit.pos
  refine ⟨⟨fp.rnd (k + (toBaseR fp a).mag), PUnit.dimensionless, a.reg⟩, if_pos ha.dim, rfl, rfl, ?_, ha.reg⟩
  have h1 := ha.val.mul H.nonneg H.lt_one (Near.refl u (a.unit.scale)⁻¹)
  have h2 := ((h1.mul H.nonneg H.lt_one (H.conv a.unit (PUnit.base a.unit.dim) rfl)).round H).round H
  have e1 : a.unit.scale⁻¹ * (a.mag * a.unit.scale) = a.mag := by field_simp
  have e2 : ∀ z, a.unit.scale / (PUnit.base a.unit.dim).scale * (a.unit.scale⁻¹ * z) = z := fun z => by
    simp only [PUnit.base]; field_simp
  rw [e1, e2, e2, mul_comm (fp.conv _ _) a.mag] at h2
  have h3 := (h2.add H.nonneg H.lt_one hk hP (Near.refl u k)).round H
  simp only [toBaseR, ha.off, add_zero, PUnit.dimensionless, PUnit.base, mul_one] at h3 ⊢
  exact h3.mono H.nonneg H.lt_one (by omega)

theorem rdivR_spec (H : fp.Accurate u κ) {k k' : ℝ} {l : ℕ} (hk : Near u l k k') (ha : NearVal u n a d x r) (hx : x ≠ 0) :
    ∃ c, rdivR fp k' a = .ok c ∧ NearVal u (n + l + 1) c (Dim.one.div d) (k / x) r := by
  have o1 : noOffset a = .ok () := if_pos ha.off
  have sa := a.unit.pos
  have h0 := near_mag H.nonneg H.lt_one sa ha.val
  have hm : a.mag ≠ 0 := by
    obtain ⟨θ, a1, -, e⟩ := h0
    rw [e]
    exact mul_ne_zero (div_ne_zero hx sa.ne') (Near.theta_pos H.nonneg H.lt_one a1).ne'
  refine ⟨⟨fp.rnd (k' / a.mag), PUnit.dimensionless.div a.unit, a.reg⟩, ?_, ?_, rfl, ?_, ha.reg⟩
  · simp only [rdivR, o1, ok_bind, if_neg hm]
  · change Dim.one.div a.unit.dim = _
    rw [ha.dim]
  · have h1 := Near.mul H.nonneg H.lt_one (H.round (Near.div H.nonneg H.lt_one hk h0))
      (Near.refl u (PUnit.dimensionless.scale / a.unit.scale))
    have e : k / (x / a.unit.scale) * (PUnit.dimensionless.scale / a.unit.scale) = k / x := by
      simp only [PUnit.dimensionless, PUnit.base]; field_simp
    rw [e] at h1
    exact Near.mono H.nonneg H.lt_one (by omega) h1

theorem toBase_near (H : fp.Accurate u κ) (ha : a.unit.offset = 0) :
    Near u (κ + 2) (a.mag * a.unit.scale) (a.toBaseR fp).mag := by
  obtain ⟨h1, h2⟩ := toBaseR_spec H (n := 0) (d := a.unit.dim) (x := a.mag * a.unit.scale) (r := a.reg)
    ⟨rfl, ha, Near.refl u _, rfl⟩
  have := h1.val
  rw [h2, zero_add] at this
  simpa [PUnit.base] using this

/-- What `a < b` compares: the two values, each up to `κ + 2` roundings. -/
theorem ltR_spec (H : fp.Accurate u κ) (hd : a.unit.dim = b.unit.dim) (oa : a.unit.offset = 0) (ob : b.unit.offset = 0)
    (hr : a.reg = b.reg) : ∃ c s t, a.ltR fp b = .ok c ∧ (c = true ↔ s < t) ∧
      Near u (κ + 2) (a.mag * a.unit.scale) s ∧ Near u (κ + 2) (b.mag * b.unit.scale) t ∧
      (a.unit = b.unit → (c = true ↔ a.mag < b.mag)) := by
  have h0 : sameReg a b = .ok () := if_pos hr
  by_cases hu : a.unit = b.unit
  · refine ⟨decide (a.mag < b.mag), a.mag * a.unit.scale, b.mag * b.unit.scale, ?_, ?_,
      Near.mono H.nonneg H.lt_one (Nat.zero_le _) (Near.refl u _), Near.mono H.nonneg H.lt_one (Nat.zero_le _) (Near.refl u _),
      fun _ => decide_eq_true_iff⟩
    · simp only [ltR, h0, ok_bind, if_pos hd, if_pos hu]
    · rw [decide_eq_true_iff, hu, mul_lt_mul_iff_left₀ b.unit.pos]
  · refine ⟨decide ((a.toBaseR fp).mag < (b.toBaseR fp).mag), _, _, ?_, decide_eq_true_iff, toBase_near H oa, toBase_near H ob,
      fun h => absurd h hu⟩
    simp only [ltR, h0, ok_bind, if_pos hd, if_neg hu]

/-- The smaller of two quantities, as chosen by a rounded comparison, is the smaller value. -/
theorem ltR_min (H : fp.Accurate u κ) (ha : NearVal u n a d x r) (hb : NearVal u m b d y r) (hx : 0 < x) (hy : 0 < y) :
    ∃ c, a.ltR fp b = .ok c ∧ NearVal u (max n m + 2 * (κ + 2)) (if c then a else b) d (min x y) r := by
  have h0 := H.nonneg
  have h1 := H.lt_one
  obtain ⟨c, s, t, e, hc, hs, ht, -⟩ := ltR_spec H (ha.dim.trans hb.dim.symm) ha.off hb.off (ha.reg.trans hb.reg.symm)
  refine ⟨c, e, ?_⟩
  have hva := Near.mono h0 h1 (le_max_left n m) ha.val
  have hvb := Near.mono h0 h1 (le_max_right n m) hb.val
  have key : ∀ {X Y v w s t : ℝ}, 0 < X → 0 < Y → Near u (max n m) X v → Near u (max n m) Y w → Near u (κ + 2) v s →
      Near u (κ + 2) w t → s ≤ t → Near u (max n m + 2 * (κ + 2)) (min X Y) v := by
    intro X Y v w s t hX hY hv hw hs ht hst
    have pv := Near.pos h0 h1 hX hv
    have pw := Near.pos h0 h1 hY hw
    obtain ⟨θ, a1, a2, rfl⟩ := hv
    obtain ⟨φ, b1, b2, rfl⟩ := hw
    obtain ⟨α, c1, c2, rfl⟩ := hs
    obtain ⟨β, d1, d2, rfl⟩ := ht
    have hN := Near.pow_bounds h0 h1 (max n m)
    have hK := Near.pow_bounds h0 h1 (κ + 2)
    have hmin : 0 < min X Y := lt_min hX hY
    have epow : (1 - u) ^ (max n m + 2 * (κ + 2)) = (1 - u) ^ max n m * ((1 - u) ^ (κ + 2) * (1 - u) ^ (κ + 2)) := by ring
    refine ⟨X * θ / min X Y, ?_, ?_, by rw [mul_div_cancel₀ _ hmin.ne']⟩
    · rw [le_div_iff₀ hmin, epow]
      have g1 : min X Y ≤ X := min_le_left _ _
      have g2 : (1 - u) ^ (κ + 2) * (1 - u) ^ (κ + 2) ≤ 1 := mul_le_one₀ hK.2 hK.1.le hK.2
      calc (1 - u) ^ max n m * ((1 - u) ^ (κ + 2) * (1 - u) ^ (κ + 2)) * min X Y
          ≤ (1 - u) ^ max n m * 1 * X :=
            mul_le_mul (mul_le_mul_of_nonneg_left g2 hN.1.le) g1 hmin.le (by linarith [hN.1])
        _ ≤ X * θ := by nlinarith
    · rw [div_mul_eq_mul_div, div_le_one hmin, epow]
      generalize (1 - u) ^ max n m = N at *
      generalize (1 - u) ^ (κ + 2) = K at *
      apply le_min
      · have g1 : X * θ * N ≤ X := by nlinarith
        have g2 : K * K ≤ 1 := mul_le_one₀ hK.2 hK.1.le hK.2
        calc X * θ * (N * (K * K)) = (X * θ * N) * (K * K) := by ring
          _ ≤ X * 1 := mul_le_mul g1 g2 (by nlinarith [hK.1]) hX.le
          _ = X := mul_one X
      · have g1 : X * θ * K ≤ X * θ * α := mul_le_mul_of_nonneg_left c1 pv.le
        have g2 : Y * φ * β * K ≤ Y * φ := by nlinarith
        have g3 : Y * φ * N ≤ Y := by nlinarith
        have g4 : X * θ * K * K ≤ Y * φ := by nlinarith [hK.1]
        calc X * θ * (N * (K * K)) = (X * θ * K * K) * N := by ring
          _ ≤ Y * φ * N := mul_le_mul_of_nonneg_right g4 hN.1.le
          _ ≤ Y := g3
  by_cases hcc : c = true
  · rw [if_pos hcc]
    exact ⟨ha.dim, ha.off, key hx hy hva hvb hs ht (hc.mp hcc).le, ha.reg⟩
  · rw [if_neg hcc, min_comm]
    exact ⟨hb.dim, hb.off, key hy hx hvb hva ht hs (not_lt.mp (fun h => hcc (hc.mpr h))), hb.reg⟩

theorem rdivR_exact (k : ℝ) (a : Quantity) : rdivR FP.exact k a = rdiv k a := rfl

theorem ltR_exact (a b : Quantity) : a.ltR FP.exact b = a.lt b := by
  simp only [ltR, lt, toBaseR_exact]
  by_cases hr : a.reg = b.reg
  · have h0 : sameReg a b = .ok () := if_pos hr
    simp only [h0, ok_bind]
    by_cases hd : a.unit.dim = b.unit.dim
    · rw [if_pos hd, if_pos hd]
      by_cases hu : a.unit = b.unit
      · rw [if_pos hu]
        simp only [phys, hu, add_lt_add_iff_right, mul_lt_mul_iff_left₀ b.unit.pos]
      · rw [if_neg hu]; rfl
    · rw [if_neg hd, if_neg hd]
  · simp only [sameReg, if_neg hr, err_bind]

end Quantity

end Pypbomb
