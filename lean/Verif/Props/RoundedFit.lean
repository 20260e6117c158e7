/-
C126: rounding in `cj_curve_fit`.
-/
import Verif.Lemmas.AbsErr
import Verif.Props.RoundedSD
import Verif.Props.RoundedLookup
import Verif.Props.CurveFit

namespace Pypbomb.SD

variable {fp : FP} {sum : List ℝ → ℝ} {u : ℝ} {κ : ℕ} {pts : List (ℝ × ℝ)} {fit : Fit}

theorem Summed.exact {l : List ℝ} {s : ℝ} (h : Summed FP.exact l s) : s = l.sum := by
  induction h with
  | nil => rfl
  | one x => simp
  | node hp _ _ _ _ i₁ i₂ => rw [hp.sum_eq, List.sum_append, ← i₁, ← i₂]; rfl

/-- C126: with exact arithmetic the rounded `cj_curve_fit` is `cj_curve_fit`. -/
theorem C126_exact (hs : NpSum FP.exact sum) : cjCurveFitR FP.exact sum pts = cjCurveFit pts := by
  have e : sum = List.sum := funext fun l => (hs l).exact
  subst e
  simp only [cjCurveFitR, cjCurveFit, pyDivR_exact, exact_rnd, sumOf]
  rfl

theorem map_sum_add (f g : ℝ × ℝ → ℝ) : (pts.map fun p => f p + g p).sum = (pts.map f).sum + (pts.map g).sum := by
  induction pts with
  | nil => simp
  | cons p l ih => simp only [List.map_cons, List.sum_cons, ih]; ring

theorem map_sum_mul (k : ℝ) (f : ℝ × ℝ → ℝ) : (pts.map fun p => k * f p).sum = k * (pts.map f).sum := by
  induction pts with
  | nil => simp
  | cons p l ih => simp only [List.map_cons, List.sum_cons, ih]; ring

theorem map_sum_const (k : ℝ) : (pts.map fun _ => k).sum = pts.length * k := by simp

theorem covariance_eq (a b c : ℝ) :
    pts.length * (pts.map fun p => p.1 * (p.2 - (a * p.1 ^ 2 + b * p.1 + c))).sum -
      (pts.map fun p => p.1).sum * (pts.map fun p => p.2 - (a * p.1 ^ 2 + b * p.1 + c)).sum =
    pts.length * (pts.map fun p => p.2 * p.1).sum - (pts.map fun p => p.2).sum * (pts.map fun p => p.1).sum -
      b * ((pts.map fun p => p.1 ^ 2).sum * pts.length - (pts.map fun p => p.1).sum * (pts.map fun p => p.1).sum) -
    a * ((pts.map fun p => p.1 ^ 3).sum * pts.length - (pts.map fun p => p.1 ^ 2).sum * (pts.map fun p => p.1).sum) := by
  have e1 : (fun p : ℝ × ℝ => p.2 - (a * p.1 ^ 2 + b * p.1 + c)) = fun p => p.2 + (-a) * p.1 ^ 2 + (-b) * p.1 + -c := by
    funext p; ring
  have e2 : (fun p : ℝ × ℝ => p.1 * (p.2 - (a * p.1 ^ 2 + b * p.1 + c))) =
      fun p => p.2 * p.1 + (-a) * p.1 ^ 3 + (-b) * p.1 ^ 2 + (-c) * p.1 := by
    funext p; ring
  rw [e1, e2]; simp only [map_sum_add, map_sum_mul, map_sum_const]; ring

theorem sum_abs (H : fp.Accurate u κ) (hs : NpSum fp sum) {f g : ℝ × ℝ → ℝ} {k : ℕ}
    (h : ∀ p, AbsErr u k |f p| (f p) (g p)) :
    AbsErr u (k + (pts.length - 1)) (sumOf (fun p => |f p|) pts) (sumOf f pts) (sum (pts.map g)) :=
  (hs _).absErr H (.refl _) fun p _ => h p

/-- C126: the residuals of the computed parabola add up to zero, up to `n + 5` roundings of the terms of that sum. -/
theorem C126_residual_sum (H : fp.Accurate u κ) (hs : NpSum fp sum) (h : cjCurveFitR fp sum pts = .ok fit) :
    |(pts.map fun p => p.2 - (fit.a * p.1 ^ 2 + fit.b * p.1 + fit.c)).sum| ≤
      amp u (pts.length + 5) * (pts.map fun p => |p.2| + |fit.a| * p.1 ^ 2 + |fit.b| * |p.1|).sum := by
  have h0 := H.nonneg; have h1 := H.lt_one
  have r1 : ∀ {x : ℝ}, AbsErr u 1 |x| x (fp.rnd x) := fun {x} => (AbsErr.refl u x).round h0 h1 H
  simp only [cjCurveFitR, bind_eq_ok, pyDivR_eq_ok] at h
  obtain ⟨m, ⟨n0, -⟩, b, -, iden, -, inv, ⟨-, rfl⟩, h⟩ := h
  generalize ha : fp.rnd (iden * _) = a at h
  have len : 1 ≤ pts.length := by
    by_contra hn
    exact n0 (by rw [show pts.length = 0 by omega]; simp)
  set n : ℝ := (pts.length : ℝ) with hn
  have npos : 0 < n := by rw [hn]; exact_mod_cast len
  have sY := sum_abs (pts := pts) H hs (f := fun p => p.2) (g := fun p => p.2) (k := 0) fun p => AbsErr.refl u _
  have sX := sum_abs (pts := pts) H hs (f := fun p => p.1) (g := fun p => p.1) (k := 0) fun p => AbsErr.refl u _
  have sX2 := sum_abs (pts := pts) H hs (f := fun p => p.1 ^ 2) (g := fun p => fp.rnd (p.1 ^ 2)) (k := 1) fun p => r1
  have t1 := ((AbsErr.refl u a).mul h0 h1 sX2).round h0 h1 H
  have t2 := ((AbsErr.refl u b).mul h0 h1 sX).round h0 h1 H
  have t3 := (((sY.sub h0 h1 t1).round h0 h1 H).sub h0 h1 t2).round h0 h1 H
  have t4 := ((r1 (x := 1 / n)).mul h0 h1 t3).round h0 h1 H
  have t5 := (AbsErr.refl u n).mul h0 h1 t4
  cases h
  have e := t5.2
  simp only [sumOf] at e
  have e1 : (pts.map fun p => p.2 - (a * p.1 ^ 2 + b * p.1 +
      fp.rnd (fp.rnd (1 / n) * fp.rnd (fp.rnd (sum (pts.map fun p => p.2) - fp.rnd (a * sum (pts.map fun p => fp.rnd (p.1 ^ 2)))) -
        fp.rnd (b * sum (pts.map fun p => p.1)))))).sum =
      (pts.map fun p => p.2).sum - a * (pts.map fun p => p.1 ^ 2).sum - b * (pts.map fun p => p.1).sum -
      n * fp.rnd (fp.rnd (1 / n) * fp.rnd (fp.rnd (sum (pts.map fun p => p.2) - fp.rnd (a * sum (pts.map fun p => fp.rnd (p.1 ^ 2)))) -
        fp.rnd (b * sum (pts.map fun p => p.1)))) := by
    generalize fp.rnd (fp.rnd (1 / n) * _) = c
    rw [hn]
    clear * -
    induction pts with
    | nil => simp
    | cons p l ih => simp only [List.map_cons, List.sum_cons, ih, List.length_cons]; push_cast; ring
  have e2 : (pts.map fun p => |p.2| + |a| * p.1 ^ 2 + |b| * |p.1|).sum =
      (pts.map fun p => |p.2|).sum + |a| * (pts.map fun p => |p.1 ^ 2|).sum + |b| * (pts.map fun p => |p.1|).sum := by
    simp only [abs_pow, sq_abs]
    clear * -
    induction pts with
    | nil => simp
    | cons p l ih => simp only [List.map_cons, List.sum_cons, ih]; ring
  rw [e1, e2, abs_sub_comm]
  have q : n * (1 / n) = 1 := by field_simp
  have q' : |n| * |1 / n| = 1 := by rw [← abs_mul, q, abs_one]
  rw [← mul_assoc n, q, one_mul, ← mul_assoc |n|, q', one_mul] at e
  refine e.trans (mul_le_mul_of_nonneg_right (amp_mono h0 h1 (by omega)) ?_)
  have := t3.A_nonneg
  simpa only [sumOf] using this

/-- C126: the residuals of the computed parabola are uncorrelated with the abscissae, up to `2 n + 3` roundings of the terms
that make up the covariance. -/
theorem C126_residual_slope (H : fp.Accurate u κ) (hs : NpSum fp sum) (h : cjCurveFitR fp sum pts = .ok fit) :
    let r := fun p : ℝ × ℝ => p.2 - (fit.a * p.1 ^ 2 + fit.b * p.1 + fit.c)
    |pts.length * (pts.map fun p => p.1 * r p).sum - (pts.map fun p => p.1).sum * (pts.map r).sum| ≤
      amp u (2 * pts.length + 3) *
        (pts.length * (pts.map fun p => |p.1| * (|p.2| + |fit.a| * p.1 ^ 2 + |fit.b| * |p.1|)).sum +
          (pts.map fun p => |p.1|).sum * (pts.map fun p => |p.2| + |fit.a| * p.1 ^ 2 + |fit.b| * |p.1|).sum) := by
  have h0 := H.nonneg; have h1 := H.lt_one
  have r1 : ∀ {x : ℝ}, AbsErr u 1 |x| x (fp.rnd x) := fun {x} => (AbsErr.refl u x).round h0 h1 H
  simp only [cjCurveFitR, bind_eq_ok, pyDivR_eq_ok] at h
  obtain ⟨m, ⟨n0, -⟩, b, -, iden, ⟨d0, rfl⟩, inv, -, h⟩ := h
  have len : 1 ≤ pts.length := by
    by_contra hn
    exact n0 (by rw [show pts.length = 0 by omega]; simp)
  set n : ℝ := (pts.length : ℝ) with hn
  have npos : 0 < n := by rw [hn]; exact_mod_cast len
  have sY := sum_abs (pts := pts) H hs (f := fun p => p.2) (g := fun p => p.2) (k := 0) fun p => AbsErr.refl u _
  have sX := sum_abs (pts := pts) H hs (f := fun p => p.1) (g := fun p => p.1) (k := 0) fun p => AbsErr.refl u _
  have sX2 := sum_abs (pts := pts) H hs (f := fun p => p.1 ^ 2) (g := fun p => fp.rnd (p.1 ^ 2)) (k := 1) fun p => r1
  have sX3 := sum_abs (pts := pts) H hs (f := fun p => p.1 ^ 3) (g := fun p => fp.rnd (p.1 ^ 3)) (k := 1) fun p => r1
  have sXY := sum_abs (pts := pts) H hs (f := fun p => p.2 * p.1) (g := fun p => fp.rnd (p.2 * p.1)) (k := 1) fun p => r1
  have tn := AbsErr.refl u n
  have tden := (((sX3.mul h0 h1 tn).round h0 h1 H).sub h0 h1 ((sX2.mul h0 h1 sX).round h0 h1 H)).round h0 h1 H
  have tv := (((sX2.mul h0 h1 tn).round h0 h1 H).sub h0 h1 ((sX.mul h0 h1 sX).round h0 h1 H)).round h0 h1 H
  have tw := (((tn.mul h0 h1 sXY).round h0 h1 H).sub h0 h1 ((sY.mul h0 h1 sX).round h0 h1 H)).round h0 h1 H
  have tnum := (tw.sub h0 h1 (((AbsErr.refl u b).mul h0 h1 tv).round h0 h1 H)).round h0 h1 H
  generalize hden : fp.rnd (fp.rnd (_ * n) - _) = den at h d0 tden
  generalize hnum : fp.rnd (fp.rnd (fp.rnd (n * _) - _) - _) = num at h tnum
  generalize ha : fp.rnd (fp.rnd (1 / den) * num) = a at h
  have na : Near u 2 (num / den) a := by
    rw [← ha, show num / den = 1 / den * num by field_simp]
    exact H.round ((H.round (Near.refl u (1 / den))).mul h0 h1 (Near.refl u num))
  have nnum : ∃ θ, AbsErr u 2 1 1 θ ∧ num = a * den * θ := by
    obtain ⟨θ, p, q, e⟩ := na
    have θ0 := Near.theta_pos h0 h1 p
    have t : Near u 2 1 θ⁻¹ := by
      have := Near.inv h0 h1 (show Near u 2 1 θ from ⟨θ, p, q, by simp⟩)
      simpa using this
    refine ⟨θ⁻¹, by simpa using AbsErr.of_near h0 h1 t, ?_⟩
    rw [e]; field_simp
  obtain ⟨θ, tθ, e⟩ := nnum
  have ta := ((AbsErr.refl u a).mul h0 h1 tden).mul h0 h1 tθ
  rw [← e, mul_one, mul_one] at ta
  have ta := ta.mono h0 h1 (l := 2 * pts.length + 3) (by omega) le_rfl
  have tnum := tnum.mono h0 h1 (l := 2 * pts.length + 3) (by omega) le_rfl
  cases h
  intro r
  have b1 := ta.2; have b2 := tnum.2
  simp only [sumOf, abs_pow, abs_mul] at b1 b2
  have an : |n| = n := abs_of_pos npos
  have e3 : (pts.map fun p => |p.1| * (|p.2| + |a| * p.1 ^ 2 + |b| * |p.1|)).sum =
      (pts.map fun p => |p.2| * |p.1|).sum + |a| * (pts.map fun p => |p.1| ^ 3).sum + |b| * (pts.map fun p => |p.1| ^ 2).sum := by
    have : (fun p : ℝ × ℝ => |p.1| * (|p.2| + |a| * p.1 ^ 2 + |b| * |p.1|)) =
        fun p => |p.2| * |p.1| + |a| * |p.1| ^ 3 + |b| * |p.1| ^ 2 := by
      funext p; rw [← sq_abs p.1]; ring
    rw [this]; simp only [map_sum_add, map_sum_mul]
  have e4 : (pts.map fun p => |p.2| + |a| * p.1 ^ 2 + |b| * |p.1|).sum =
      (pts.map fun p => |p.2|).sum + |a| * (pts.map fun p => |p.1| ^ 2).sum + |b| * (pts.map fun p => |p.1|).sum := by
    simp only [sq_abs, map_sum_add, map_sum_mul]
  rw [covariance_eq, e3, e4]
  rw [an] at b1 b2
  have t := abs_sub_le
    (n * (pts.map fun p => p.2 * p.1).sum - (pts.map fun p => p.2).sum * (pts.map fun p => p.1).sum -
      b * ((pts.map fun p => p.1 ^ 2).sum * n - (pts.map fun p => p.1).sum * (pts.map fun p => p.1).sum)) num
    (a * ((pts.map fun p => p.1 ^ 3).sum * n - (pts.map fun p => p.1 ^ 2).sum * (pts.map fun p => p.1).sum))
  rw [abs_sub_comm _ num] at t
  calc _ ≤ _ := t.trans (add_le_add b2 b1)
    _ = _ := by ring

/-- C126: `R^2` is at most 1 up to one rounding. -/
theorem C126_r_squared (H : fp.Accurate u κ) (hs : NpSum fp sum) (h : cjCurveFitR fp sum pts = .ok fit) {r : ℝ}
    (hr : fit.r2 = some r) : r ≤ 1 + u := by
  have h0 := H.nonneg; have h1 := H.lt_one
  have nn : ∀ {l : List ℝ} {s : ℝ}, Summed fp l s → (∀ x ∈ l, 0 ≤ x) → 0 ≤ s := fun {l s} hl => by
    induction hl with
    | nil => intro _; exact le_rfl
    | one x => intro h; exact h x (by simp)
    | node hp _ _ _ _ i₁ i₂ =>
      intro h
      exact rnd_nonneg' H (add_nonneg (i₁ fun x hx => h x (hp.mem_iff.mpr (by simp [hx])))
        (i₂ fun x hx => h x (hp.mem_iff.mpr (by simp [hx]))))
  simp only [cjCurveFitR, bind_eq_ok, pyDivR_eq_ok] at h
  obtain ⟨m, -, b, -, iden, -, inv, -, h⟩ := h
  cases h
  split_ifs at hr with hz
  cases hr
  have sq : ∀ g : ℝ × ℝ → ℝ, 0 ≤ sum (pts.map fun p => fp.rnd (g p ^ 2)) := fun g =>
    nn (hs _) fun x hx => by obtain ⟨p, -, rfl⟩ := List.mem_map.mp hx; exact rnd_nonneg' H (sq_nonneg _)
  have key : ∀ q : ℝ, 0 ≤ q → fp.rnd (1 - q) ≤ 1 + u := fun q q0 => by
    have e := abs_le.mp (H.rnd (1 - q))
    rcases le_total 0 (1 - q) with p | p
    · rw [abs_of_nonneg p] at e; nlinarith [e.2]
    · rw [abs_of_nonpos p] at e; nlinarith [e.2]
  exact key _ (rnd_nonneg' H (div_nonneg (sq _) (sq _)))

/-- `np.sum` for exact arithmetic. -/
theorem npSum_exact : NpSum FP.exact List.sum := by
  intro l
  induction l with
  | nil => exact .nil
  | cons x l ih =>
    cases l with
    | nil => simpa using Summed.one (fp := FP.exact) x
    | cons y l =>
      have := Summed.node (fp := FP.exact) (l := x :: y :: l) (l₁ := [x]) (l₂ := y :: l) (.refl _) (by simp) (by simp)
        (.one x) ih
      simpa [exact_rnd] using this

open Classical in
/-- For every arithmetic there is a `np.sum`: left to right. -/
theorem npSum_exists (fp : FP) : ∃ sum, NpSum fp sum := by
  have : ∀ l, ∃ s, Summed fp l s := by
    intro l
    induction l with
    | nil => exact ⟨0, .nil⟩
    | cons x l ih =>
      obtain ⟨s, hs⟩ := ih
      cases l with
      | nil => exact ⟨x, .one x⟩
      | cons y l => exact ⟨_, .node (l₁ := [x]) (l₂ := y :: l) (.refl _) (by simp) (by simp) (.one x) hs⟩
  choose f hf using this
  exact ⟨f, hf⟩

/-- Sums of few small whole numbers are exact. -/
theorem Summed.ints (hf : ∀ n : ℤ, |n| ≤ 2000 → fp.rnd (n : ℝ) = n) {l : List ℝ} {s : ℝ} (h : Summed fp l s) :
    ∀ m : List ℤ, l.Perm (m.map fun n : ℤ => (n : ℝ)) → (m.map fun n => |n|).sum ≤ 2000 → s = (m.sum : ℤ) := by
  induction h with
  | nil =>
    intro m hm _
    have : m = [] := by simpa using hm.symm.eq_nil
    subst this; simp
  | one x =>
    intro m hm _
    have := List.perm_singleton.mp hm.symm
    match m, this with
    | [a], h => simpa using (by simpa using h.symm : x = a)
  | @node l l₁ l₂ s₁ s₂ hp _ _ _ _ i₁ i₂ =>
    intro m hm hb
    obtain ⟨m', pm, em⟩ := perm_map_lift (g := fun n : ℤ => (n : ℝ)) (hm.symm.trans hp) rfl
    obtain ⟨m₁, m₂, rfl, e₁, e₂⟩ := List.map_eq_append_iff.mp em
    have b : (m.map fun n => |n|).sum = (m₁.map fun n => |n|).sum + (m₂.map fun n => |n|).sum := by
      rw [(pm.map _).sum_eq]; simp
    have nn : ∀ m : List ℤ, |m.sum| ≤ (m.map fun n => |n|).sum := by
      intro m
      induction m with
      | nil => simp
      | cons a m ih =>
        simp only [List.sum_cons, List.map_cons]
        exact (abs_add_le _ _).trans (by linarith)
    have p₁ := (abs_nonneg _).trans (nn m₁)
    have p₂ := (abs_nonneg _).trans (nn m₂)
    rw [i₁ m₁ (by rw [e₁]) (by omega), i₂ m₂ (by rw [e₂]) (by omega), pm.sum_eq, List.sum_append]
    rw [← Int.cast_add]
    refine hf _ ?_
    exact (abs_add_le _ _).trans (by linarith [nn m₁, nn m₂])

/-- In double precision `cj_curve_fit` returns for the points (0, 1), (1, 0), (2, 1), however `np.sum` adds, and the
residuals of the parabola it returns add up to zero up to rounding. -/
example {sum : List ℝ → ℝ} (hs : NpSum FP.double sum) :
    ∃ fit, cjCurveFitR FP.double sum [(0, 1), (1, 0), (2, 1)] = .ok fit ∧
      |(1 - fit.c) + (0 - (fit.a + fit.b + fit.c)) + (1 - (fit.a * 4 + fit.b * 2 + fit.c))| ≤
        amp ((1 / 2) ^ 53) 8 * (2 + 5 * |fit.a| + 3 * |fit.b|) := by
  have hi : ∀ n : ℤ, |n| ≤ 2000 → FP.double.rnd (n : ℝ) = n := Tube.double_ints
  have S : ∀ m : List ℤ, (m.map fun n => |n|).sum ≤ 2000 → sum (m.map fun n : ℤ => (n : ℝ)) = (m.sum : ℤ) :=
    fun m hm => (hs _).ints hi m (.refl _) hm
  have I : ∀ (x : ℝ) (n : ℤ), x = n → |n| ≤ 2000 → FP.double.rnd x = n := fun x n e h => by rw [e]; exact hi n h
  have s1 : sum [0, 1, 2] = 3 := by have := S [0, 1, 2] (by decide); simpa using this
  have s2 : sum [0, 1, 4] = 5 := by have := S [0, 1, 4] (by decide); simpa using this
  have s3 : sum [0, 1, 8] = 9 := by have := S [0, 1, 8] (by decide); simpa using this
  have s4 : sum [0, 1, 16] = 17 := by have := S [0, 1, 16] (by decide); simpa using this
  obtain ⟨fit, hfit⟩ : ∃ fit, cjCurveFitR FP.double sum [(0, 1), (1, 0), (2, 1)] = .ok fit := by
    simp only [cjCurveFitR, List.map_cons, List.map_nil, List.length_cons, List.length_nil]
    have e2 : ([FP.double.rnd (0 ^ 2), FP.double.rnd (1 ^ 2), FP.double.rnd (2 ^ 2)] : List ℝ) = [0, 1, 4] := by
      rw [I (0 ^ 2) 0 (by norm_num) (by decide), I (1 ^ 2) 1 (by norm_num) (by decide), I (2 ^ 2) 4 (by norm_num) (by decide)]
      norm_num
    have e3 : ([FP.double.rnd (0 ^ 3), FP.double.rnd (1 ^ 3), FP.double.rnd (2 ^ 3)] : List ℝ) = [0, 1, 8] := by
      rw [I (0 ^ 3) 0 (by norm_num) (by decide), I (1 ^ 3) 1 (by norm_num) (by decide), I (2 ^ 3) 8 (by norm_num) (by decide)]
      norm_num
    have e4 : ([FP.double.rnd (0 ^ 4), FP.double.rnd (1 ^ 4), FP.double.rnd (2 ^ 4)] : List ℝ) = [0, 1, 16] := by
      rw [I (0 ^ 4) 0 (by norm_num) (by decide), I (1 ^ 4) 1 (by norm_num) (by decide), I (2 ^ 4) 16 (by norm_num) (by decide)]
      norm_num
    rw [e2, e3, e4, s1, s2, s3, s4]
    have q1 : FP.double.rnd (9 * ((0 + 1 + 1 + 1 : ℕ) : ℝ)) = (27 : ℤ) := I _ 27 (by norm_num) (by decide)
    have q2 : FP.double.rnd (5 * 3) = (15 : ℤ) := I _ 15 (by norm_num) (by decide)
    have q2' : FP.double.rnd (3 * 5) = (15 : ℤ) := I _ 15 (by norm_num) (by decide)
    have q3 : FP.double.rnd (5 * 5) = (25 : ℤ) := I _ 25 (by norm_num) (by decide)
    have q4 : FP.double.rnd (3 * 3) = (9 : ℤ) := I _ 9 (by norm_num) (by decide)
    have q5 : FP.double.rnd (((0 + 1 + 1 + 1 : ℕ) : ℝ) * 5) = (15 : ℤ) := I _ 15 (by norm_num) (by decide)
    have q6 : FP.double.rnd (17 * ((0 + 1 + 1 + 1 : ℕ) : ℝ)) = (51 : ℤ) := I _ 51 (by norm_num) (by decide)
    have q7 : FP.double.rnd (5 * ((0 + 1 + 1 + 1 : ℕ) : ℝ)) = (15 : ℤ) := I _ 15 (by norm_num) (by decide)
    have q8 : FP.double.rnd (((27 : ℤ) : ℝ) - ((15 : ℤ) : ℝ)) = (12 : ℤ) := I _ 12 (by norm_num) (by decide)
    have q9 : FP.double.rnd (((15 : ℤ) : ℝ) - ((27 : ℤ) : ℝ)) = (-12 : ℤ) := I _ (-12) (by norm_num) (by decide)
    have q10 : FP.double.rnd (((9 : ℤ) : ℝ) - ((15 : ℤ) : ℝ)) = (-6 : ℤ) := I _ (-6) (by norm_num) (by decide)
    have q11 : FP.double.rnd (((12 : ℤ) : ℝ) * ((-12 : ℤ) : ℝ)) = (-144 : ℤ) := I _ (-144) (by norm_num) (by decide)
    have q12 : FP.double.rnd (((25 : ℤ) : ℝ) * ((-6 : ℤ) : ℝ)) = (-150 : ℤ) := I _ (-150) (by norm_num) (by decide)
    have q13 : FP.double.rnd (((51 : ℤ) : ℝ) * ((-6 : ℤ) : ℝ)) = (-306 : ℤ) := I _ (-306) (by norm_num) (by decide)
    have q14 : FP.double.rnd (((-144 : ℤ) : ℝ) + ((-150 : ℤ) : ℝ)) = (-294 : ℤ) := I _ (-294) (by norm_num) (by decide)
    have q15 : FP.double.rnd (((-294 : ℤ) : ℝ) - ((-306 : ℤ) : ℝ)) = (12 : ℤ) := I _ 12 (by norm_num) (by decide)
    rw [q1, q2, q2', q3, q4, q5, q6, q7, q8, q9, q10, q11, q12, q13, q14, q15]
    simp only [bind_eq_ok, pyDivR_eq_ok]
    exact ⟨_, _, ⟨by norm_num, rfl⟩, _, ⟨by norm_num, rfl⟩, _, ⟨by norm_num, rfl⟩, _, ⟨by norm_num, rfl⟩, rfl⟩
  refine ⟨fit, hfit, ?_⟩
  have := C126_residual_sum FP.double_accurate hs hfit
  simp only [List.map_cons, List.map_nil, List.length_cons, List.length_nil, List.sum_cons, List.sum_nil] at this
  have e1 : (1 - fit.c) + (0 - (fit.a + fit.b + fit.c)) + (1 - (fit.a * 4 + fit.b * 2 + fit.c)) =
      1 - (fit.a * 0 ^ 2 + fit.b * 0 + fit.c) + (0 - (fit.a * 1 ^ 2 + fit.b * 1 + fit.c) +
        (1 - (fit.a * 2 ^ 2 + fit.b * 2 + fit.c) + 0)) := by ring
  rw [e1]
  refine this.trans (le_of_eq ?_)
  rw [abs_one, abs_zero, abs_of_pos (by norm_num : (0 : ℝ) < 2)]
  ring

end Pypbomb.SD
