/-
A calculus of rounding errors relative to the sum of the magnitudes of the terms, for formulas with cancellation.
-/
import Verif.Lemmas.Near
import Verif.Model.RoundedCurveFit

namespace Pypbomb

/-- The amplification of `k` roundings: `(1 - u) ^ (-k) - 1`, about `k u`. -/
noncomputable def amp (u : ℝ) (k : ℕ) : ℝ := ((1 - u) ^ k)⁻¹ - 1

/-- `y` is `x` up to `k` roundings of terms whose magnitudes add up to at most `A`. -/
def AbsErr (u : ℝ) (k : ℕ) (A x y : ℝ) : Prop := |x| ≤ A ∧ |y - x| ≤ amp u k * A

section
variable {u : ℝ} (h0 : 0 ≤ u) (h1 : u < 1)
include h0 h1

theorem amp_inv_ge (k : ℕ) : 1 ≤ ((1 - u) ^ k)⁻¹ := by
  rw [one_le_inv₀ (pow_pos (by linarith) k)]
  exact pow_le_one₀ (by linarith) (by linarith)

theorem amp_nonneg (k : ℕ) : 0 ≤ amp u k := by
  have := amp_inv_ge h0 h1 k
  unfold amp; linarith

theorem amp_mono {k l : ℕ} (h : k ≤ l) : amp u k ≤ amp u l := by
  have : ((1 - u) ^ k)⁻¹ ≤ ((1 - u) ^ l)⁻¹ :=
    inv_anti₀ (pow_pos (by linarith) l) (pow_le_pow_of_le_one (by linarith) (by linarith) h)
  unfold amp; linarith

omit h0 h1 in
theorem amp_add (k l : ℕ) : (1 + amp u k) * (1 + amp u l) = 1 + amp u (k + l) := by
  simp only [amp, pow_add, mul_inv]; ring

omit h0 in
/-- `k` roundings are `k u` to first order. -/
theorem amp_le {k : ℕ} (hk : k * u < 1) : amp u k ≤ k * u / (1 - k * u) := by
  have b : 1 - k * u ≤ (1 - u) ^ k := by
    have := one_add_mul_le_pow (a := -u) (by linarith) k
    have e : 1 + (k : ℝ) * -u = 1 - k * u := by ring
    rw [e] at this
    simpa [sub_eq_add_neg] using this
  have : ((1 - u) ^ k)⁻¹ ≤ (1 - k * u)⁻¹ := inv_anti₀ (by linarith) b
  have e : (k : ℝ) * u / (1 - k * u) = (1 - k * u)⁻¹ - 1 := by
    have : 1 - (k : ℝ) * u ≠ 0 := by linarith
    field_simp; ring
  rw [e]; unfold amp; linarith

theorem amp_step (k : ℕ) : amp u k + u * (1 + amp u k) ≤ amp u (k + 1) := by
  have e := amp_add (u := u) k 1
  have g := amp_nonneg h0 h1 k
  have : u ≤ amp u 1 := by
    unfold amp
    rw [pow_one, le_sub_iff_add_le, le_inv_comm₀ (by linarith) (by linarith), ← one_div, le_div_iff₀ (by linarith)]
    nlinarith
  nlinarith

namespace AbsErr

variable {k l : ℕ} {A B x y x' y' : ℝ}

omit h0 h1 in
theorem refl (u x : ℝ) : AbsErr u 0 |x| x x := ⟨le_rfl, by simp [amp]⟩

omit h0 h1 in
theorem A_nonneg (h : AbsErr u k A x y) : 0 ≤ A := (abs_nonneg _).trans h.1

theorem mono {B : ℝ} (hkl : k ≤ l) (hAB : A ≤ B) (h : AbsErr u k A x y) : AbsErr u l B x y :=
  ⟨h.1.trans hAB, h.2.trans (mul_le_mul (amp_mono h0 h1 hkl) hAB h.A_nonneg (amp_nonneg h0 h1 l))⟩

omit h0 h1 in
theorem abs_le (h : AbsErr u k A x y) : |y| ≤ (1 + amp u k) * A := by
  have := abs_sub_abs_le_abs_sub y x
  have := h.1; have := h.2
  linarith

theorem round {fp : FP} {κ : ℕ} (H : fp.Accurate u κ) (h : AbsErr u k A x y) : AbsErr u (k + 1) A x (fp.rnd y) := by
  refine ⟨h.1, ?_⟩
  have e := H.rnd y
  have a := h.abs_le
  have s := mul_le_mul_of_nonneg_right (amp_step h0 h1 k) h.A_nonneg
  have t : |fp.rnd y - x| ≤ |fp.rnd y - y| + |y - x| := abs_sub_le _ _ _
  have := mul_le_mul_of_nonneg_left a h0
  have := h.2
  nlinarith

theorem mul (h : AbsErr u k A x y) (h' : AbsErr u l B x' y') : AbsErr u (k + l) (A * B) (x * x') (y * y') := by
  refine ⟨by rw [abs_mul]; exact mul_le_mul h.1 h'.1 (abs_nonneg _) h.A_nonneg, ?_⟩
  have e : y * y' - x * x' = (y - x) * y' + x * (y' - x') := by ring
  rw [e]
  refine (abs_add_le _ _).trans ?_
  rw [abs_mul, abs_mul]
  have a := mul_le_mul h.2 h'.abs_le (abs_nonneg _) (mul_nonneg (amp_nonneg h0 h1 k) h.A_nonneg)
  have b := mul_le_mul h.1 h'.2 (abs_nonneg _) h.A_nonneg
  have c := amp_add (u := u) k l
  have d : amp u k * A * ((1 + amp u l) * B) + A * (amp u l * B) = ((1 + amp u k) * (1 + amp u l) - 1) * (A * B) := by ring
  rw [c] at d
  linarith

theorem add (h : AbsErr u k A x y) (h' : AbsErr u l B x' y') : AbsErr u (max k l) (A + B) (x + x') (y + y') := by
  refine ⟨(abs_add_le _ _).trans (add_le_add h.1 h'.1), ?_⟩
  have e : y + y' - (x + x') = (y - x) + (y' - x') := by ring
  rw [e]
  refine (abs_add_le _ _).trans ?_
  have a := h.2.trans (mul_le_mul_of_nonneg_right (amp_mono h0 h1 (le_max_left k l)) h.A_nonneg)
  have b := h'.2.trans (mul_le_mul_of_nonneg_right (amp_mono h0 h1 (le_max_right k l)) h'.A_nonneg)
  linarith

omit h0 h1 in
theorem neg (h : AbsErr u k A x y) : AbsErr u k A (-x) (-y) := by
  refine ⟨by rw [abs_neg]; exact h.1, ?_⟩
  rw [show -y - -x = -(y - x) by ring, abs_neg]; exact h.2

theorem sub (h : AbsErr u k A x y) (h' : AbsErr u l B x' y') : AbsErr u (max k l) (A + B) (x - x') (y - y') := by
  rw [sub_eq_add_neg, sub_eq_add_neg]; exact add h0 h1 h h'.neg

/-- From a relative error. -/
theorem of_near {k : ℕ} {x y : ℝ} (h : Near u k x y) : AbsErr u k |x| x y := by
  refine ⟨le_rfl, ?_⟩
  obtain ⟨θ, a, b, rfl⟩ := h
  have p := pow_pos (show 0 < 1 - u by linarith) k
  have q : θ ≤ ((1 - u) ^ k)⁻¹ := by rw [le_inv_comm₀ (p.trans_le a) p, ← one_div, le_div_iff₀ (p.trans_le a)]; linarith
  have c := amp_inv_ge h0 h1 k
  have p1 : (1 - u) ^ k ≤ 1 := pow_le_one₀ (by linarith) (by linarith)
  have r : (1 - u) ^ k + ((1 - u) ^ k)⁻¹ ≥ 2 := by
    have : ((1 - u) ^ k) * ((1 - u) ^ k)⁻¹ = 1 := mul_inv_cancel₀ p.ne'
    nlinarith [sq_nonneg ((1 - u) ^ k - ((1 - u) ^ k)⁻¹)]
  rw [show x * θ - x = (θ - 1) * x by ring, abs_mul]
  refine mul_le_mul_of_nonneg_right ?_ (abs_nonneg _)
  unfold amp
  rw [_root_.abs_le]; constructor <;> linarith

end AbsErr
end

/-! ### sums -/

namespace SD

variable {fp : FP} {u : ℝ} {κ : ℕ}

theorem perm_map_lift {α β : Type} {g : α → β} {m m' : List β} (h : m.Perm m') :
    ∀ {l : List α}, l.map g = m → ∃ l', l.Perm l' ∧ l'.map g = m' := by
  induction h with
  | nil => exact fun {l} h => ⟨l, .refl _, h⟩
  | cons x _ ih =>
    intro l h
    obtain ⟨a, t, rfl, rfl, e⟩ := List.map_eq_cons_iff.mp h
    obtain ⟨t', p, q⟩ := ih e
    exact ⟨a :: t', p.cons a, by simp [q]⟩
  | swap x y m =>
    intro l h
    obtain ⟨a, t, rfl, rfl, e⟩ := List.map_eq_cons_iff.mp h
    obtain ⟨b, t, rfl, rfl, e'⟩ := List.map_eq_cons_iff.mp e
    exact ⟨b :: a :: t, .swap _ _ _, by simp [e']⟩
  | trans _ _ ih₁ ih₂ =>
    intro l h
    obtain ⟨l₁, p₁, q₁⟩ := ih₁ h
    obtain ⟨l₂, p₂, q₂⟩ := ih₂ q₁
    exact ⟨l₂, p₁.trans p₂, q₂⟩

/-- Whatever the order and bracketing, the sum of `n` terms that are themselves known up to `k` roundings is known up to
`k + n - 1`. -/
theorem Summed.absErr (H : fp.Accurate u κ) {α : Type} {f g A : α → ℝ} {k : ℕ} {m : List ℝ} {s : ℝ} (hs : Summed fp m s) :
    ∀ {l : List α}, m.Perm (l.map g) → (∀ a ∈ l, AbsErr u k (A a) (f a) (g a)) →
      AbsErr u (k + (l.length - 1)) ((l.map A).sum) ((l.map f).sum) s := by
  have h0 := H.nonneg; have h1 := H.lt_one
  induction hs with
  | nil =>
    intro l hp _
    have : l = [] := by simpa using hp.symm.eq_nil
    subst this; simp [AbsErr]
  | one x =>
    intro l hp hl
    have := (List.perm_singleton.mp hp.symm)
    obtain ⟨a, rfl, e⟩ : ∃ a, l = [a] ∧ g a = x := by
      match l, this with
      | [a], h => exact ⟨a, rfl, by simpa using h⟩
    have := hl a (by simp)
    rw [e] at this
    simpa using this
  | @node m m₁ m₂ s₁ s₂ hp n₁ n₂ _ _ ih₁ ih₂ =>
    intro l hl he
    have hp' : (l.map g).Perm (m₁ ++ m₂) := hl.symm.trans hp
    obtain ⟨l', pl, el⟩ := perm_map_lift hp' rfl
    obtain ⟨l₁, l₂, rfl, e₁, e₂⟩ := List.map_eq_append_iff.mp el
    have i₁ := ih₁ (l := l₁) (by rw [e₁]) (fun a ha => he a (pl.mem_iff.mpr (by simp [ha])))
    have i₂ := ih₂ (l := l₂) (by rw [e₂]) (fun a ha => he a (pl.mem_iff.mpr (by simp [ha])))
    have k₁ : 1 ≤ l₁.length := List.length_pos_iff.mpr (by rintro rfl; exact n₁ (by simpa using e₁.symm))
    have k₂ : 1 ≤ l₂.length := List.length_pos_iff.mpr (by rintro rfl; exact n₂ (by simpa using e₂.symm))
    have := AbsErr.round h0 h1 H (AbsErr.add h0 h1 i₁ i₂)
    have hlen : l.length = l₁.length + l₂.length := by rw [pl.length_eq]; simp
    rw [(pl.map f).sum_eq, (pl.map A).sum_eq]
    simp only [List.map_append, List.sum_append]
    exact this.mono h0 h1 (by omega) le_rfl

end SD
end Pypbomb
