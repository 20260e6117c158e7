/-
C127: rounding in `cj_speed`.
-/
import Verif.Props.RoundedFit
import Verif.Props.CJSpeed

namespace Pypbomb.SD

variable {ct : Cantera} {fp : FP} {sum : List ℝ → ℝ} {u : ℝ} {κ : ℕ} {collect collect' : Collect} {P T : ℝ}
  {species : ct.Species} {mechanism : String} {returnR returnState : Bool} {out : Speed ct}

/-! ### exact arithmetic -/

theorem linspaceR_exact (lo hi : ℝ) : linspaceR FP.exact lo hi = linspace lo hi := by
  simp only [linspaceR, linspace, exact_rnd, show (21 : ℕ) = 20 + 1 from rfl, List.range_succ (n := 20), List.map_append]
  congr 1
  · exact List.map_congr_left fun i _ => add_comm _ _
  · simp only [List.map_cons, List.map_nil, List.cons.injEq, and_true]; push_cast; ring

theorem refineR_exact (hs : NpSum FP.exact sum) (task : ℕ → ℝ → Py (ℕ × ℝ)) (lo hi : ℝ) :
    refineR FP.exact sum collect task lo hi = refine collect task lo hi := by
  simp only [refineR, refine, linspaceR_exact, C126_exact hs, pyDivR_exact, exact_rnd]

theorem refineLoopR_exact (hs : NpSum FP.exact sum) (task : ℕ → ℝ → Py (ℕ × ℝ)) (delta : ℝ) (fuel : ℕ) (lo hi : ℝ)
    (last : Option Refined) (n : ℕ) :
    refineLoopR FP.exact sum collect task delta fuel lo hi last n = refineLoop collect task delta fuel lo hi last n := by
  induction fuel generalizing lo hi last n with
  | zero => rfl
  | succ k ih =>
    have e : poorFitR FP.exact last ↔ poorFit last := by cases last <;> rfl
    by_cases hp : poorFit last ∨ delta < 1e-7
    · rw [refineLoopR, if_pos (show poorFitR FP.exact last ∨ delta < FP.exact.rnd 1e-7 from hp.imp_left e.mpr), refineLoop,
        if_pos hp]
      simp only [refineR_exact hs, ih, exact_rnd]
    · rw [refineLoopR, if_neg (show ¬(poorFitR FP.exact last ∨ delta < FP.exact.rnd 1e-7) from
        fun h => hp (h.imp_left e.mp)), refineLoop, if_neg hp]

/-- C127: with exact arithmetic the rounded `cj_speed` is `cj_speed`. -/
theorem C127_exact (hs : NpSum FP.exact sum) :
    cjSpeedR FP.exact sum ct collect P T species mechanism returnR returnState =
      cjSpeed ct collect P T species mechanism returnR returnState := by
  have e : ∀ w i r, cjStateDefaultR FP.exact ct w i 1e-4 1e-4 r = cjStateDefault ct w i 1e-4 1e-4 r := fun w i r => by
    simp only [cjStateDefaultR, cjStateDefault, C124_exact_cj]
  have e1 : overRatioR FP.exact ct T P species mechanism = overRatio ct T P species mechanism := by
    funext n r; simp only [overRatioR, overRatio, exact_rnd, e]
  simp only [cjSpeedR, cjSpeed, refineLoopR_exact hs, e1, exact_rnd, stateAtR, stateAt, e]
  refine bind_congr fun l => ?_
  cases l.1 <;> rfl

/-! ### the schedule -/

/-- Running the evaluations at the points of any grid: all velocities in order, or an exception. -/
theorem collect_cases {task : ℕ → ℝ → Py (ℕ × ℝ)} (hc : Fair collect) (ht : ∀ n r x, task n r = .ok x → x.1 = n)
    (grid : List ℝ) :
    (∃ vs : List (ℕ × ℝ), (grid.zipIdx.map fun x => task x.2 x.1) = vs.map .ok ∧
      ∃ p, collect (grid.zipIdx.map fun x => task x.2 x.1) = .ok p ∧ sortResults p = vs) ∨
    ∃ e, Except.error e ∈ (grid.zipIdx.map fun x => task x.2 x.1) ∧
      ∃ e', collect (grid.zipIdx.map fun x => task x.2 x.1) = .error e' := by
  rcases results_cases (grid.zipIdx.map fun x => task x.2 x.1) with ⟨vs, hvs⟩ | ⟨e, he⟩
  · left
    refine ⟨vs, hvs, ?_⟩
    have hidx : ∀ i (h : i < vs.length), (vs[i]).1 = i := by
      intro i h
      have h1 := congrArg (fun l => l[i]?) hvs
      simp only [List.getElem?_map, List.getElem?_eq_getElem h, List.getElem?_zipIdx, Option.map_map, Nat.zero_add,
        Option.map_some] at h1
      obtain ⟨r, -, h2⟩ := Option.map_eq_some_iff.mp h1
      exact ht _ _ _ h2
    obtain ⟨p, hp, hperm⟩ := hc.all vs
    refine ⟨p, by rw [hvs]; exact hp, sortResults_perm hperm ?_⟩
    rw [List.pairwise_iff_getElem]
    intro i j h1 h2 hij
    rw [hidx i h1, hidx j h2]
    exact hij
  · right
    obtain ⟨e', -, h2⟩ := hc.err _ _ he
    exact ⟨e, he, e', h2⟩

theorem overRatioR_index (n : ℕ) (r : ℝ) (x : ℕ × ℝ) (h : overRatioR fp ct T P species mechanism n r = .ok x) : x.1 = n := by
  simp only [overRatioR, bind_eq_ok, Except.ok.injEq] at h
  obtain ⟨_, -, _, -, _, -, rfl⟩ := h
  rfl

theorem refineR_same {task : ℕ → ℝ → Py (ℕ × ℝ)} (hc : Fair collect) (hc' : Fair collect')
    (ht : ∀ n r x, task n r = .ok x → x.1 = n) (lo hi : ℝ) :
    SameOutcome (refineR fp sum collect task lo hi) (refineR fp sum collect' task lo hi) := by
  unfold refineR
  rcases collect_cases hc ht (linspaceR fp lo hi) with ⟨vs, h1, p, h2, h3⟩ | ⟨e, h1, e', h2⟩
  · rcases collect_cases hc' ht (linspaceR fp lo hi) with ⟨vs', h1', p', h2', h3'⟩ | ⟨e, h1', -⟩
    · have : vs = vs' := List.map_injective_iff.mpr (fun a b h => by cases h; rfl) (h1.symm.trans h1')
      simp only [h2, h2', ok_bind, h3, h3', this]
      exact .refl _
    · rw [h1] at h1'; simp at h1'
  · rcases collect_cases hc' ht (linspaceR fp lo hi) with ⟨vs', h1', -⟩ | ⟨e, h1', e'', h2'⟩
    · rw [h1'] at h1; simp at h1
    · simp only [h2, h2', err_bind]
      exact .inr ⟨⟨_, rfl⟩, ⟨_, rfl⟩⟩

theorem refineLoopR_same {task : ℕ → ℝ → Py (ℕ × ℝ)} (hc : Fair collect) (hc' : Fair collect')
    (ht : ∀ n r x, task n r = .ok x → x.1 = n) (delta : ℝ) (fuel : ℕ) (lo hi : ℝ) (last : Option Refined) (n : ℕ) :
    SameOutcome (refineLoopR fp sum collect task delta fuel lo hi last n)
      (refineLoopR fp sum collect' task delta fuel lo hi last n) := by
  induction fuel generalizing lo hi last n with
  | zero => exact .refl _
  | succ k ih =>
    simp only [refineLoopR]
    split
    · exact (refineR_same hc hc' ht _ _).bind fun r => ih _ _ _ _
    · exact .refl _

/-- C127: also in floating point the result does not depend on the order in which workers deliver (the order of the
additions inside `np.sum` being fixed). -/
theorem C127_schedule_independent (hc : Fair collect) (hc' : Fair collect') :
    SameOutcome (cjSpeedR fp sum ct collect P T species mechanism returnR returnState)
      (cjSpeedR fp sum ct collect' P T species mechanism returnR returnState) :=
  (refineLoopR_same hc hc' overRatioR_index 0 4 _ 2 none 0).bind fun _ => .refl _

/-! ### the refinements -/

/-- `cj_state` in floating point, with the tolerances and limit of `cj_speed`, returns `o` for the density ratio `r`. -/
def CJAtR (fp : FP) (ct : Cantera) (P T : ℝ) (species : ct.Species) (mechanism : String) (r : ℝ) (o : CJOut ct) : Prop :=
  ∃ g, initialGas ct T P species mechanism = .ok g ∧
    cjStateR fp ct g g (fp.rnd 1e-4) (fp.rnd 1e-4) r 500 500 = some (.ok o)

theorem cjStateDefaultR_ok {w i : ct.Gas} {tolT tolV r : ℝ} {o : CJOut ct} :
    cjStateDefaultR fp ct w i tolT tolV r = .ok o ↔ cjStateR fp ct w i tolT tolV r 500 500 = some (.ok o) := by
  obtain ⟨x, hx⟩ := C124_terminates_cj (fp := fp) (ct := ct) (working := w) (initial := i) (tolT := tolT) (tolV := tolV)
    (ratio := r) (maxIter := 500) (fuel := 500) (by norm_num) (by norm_num)
  rw [cjStateDefaultR, hx]; simp

/-- One refinement as seen from outside: a grid, the velocities `cj_state` returns on it, the parabola fitted through these
points and its vertex. -/
structure RefinementR (fp : FP) (sum : List ℝ → ℝ) (ct : Cantera) (P T : ℝ) (species : ct.Species) (mechanism : String)
    (grid vel : List ℝ) (fit : Fit) (vertex : ℝ) : Prop where
  length : vel.length = grid.length
  velocity : ∀ x ∈ grid.zip vel, ∃ o, CJAtR fp ct P T species mechanism x.1 o ∧ o.velocity = x.2
  fitted : cjCurveFitR fp sum (grid.zip vel) = .ok fit
  a_ne_zero : fit.a ≠ 0
  at_vertex : vertex = fp.rnd (-fit.b / fp.rnd (2 * fit.a))

theorem refineR_refinement (H : fp.Accurate u κ) (hc : Fair collect) {lo hi : ℝ} {r : Refined}
    (h : refineR fp sum collect (overRatioR fp ct T P species mechanism) lo hi = .ok r) :
    ∃ vel, RefinementR fp sum ct P T species mechanism (linspaceR fp lo hi) vel r.fit r.ratio := by
  unfold refineR at h
  generalize linspaceR fp lo hi = grid at h ⊢
  rcases collect_cases hc (overRatioR_index (fp := fp) (ct := ct) (T := T) (P := P) (species := species)
    (mechanism := mechanism)) grid with ⟨vs, h1, p, h2, h3⟩ | ⟨e, h1, e', h2⟩
  · simp only [h2, ok_bind, h3, bind_eq_ok, pyDivR_eq_ok] at h
    obtain ⟨fit, hfit, x, ⟨ha, rfl⟩, h⟩ := h
    simp only [Except.ok.injEq] at h
    subst h
    have len : vs.length = grid.length := by
      have := congrArg List.length h1; simpa using this.symm
    refine ⟨vs.map (·.2), by simpa using len, fun x hx => ?_, hfit, fun hz => ha ?_, rfl⟩
    · obtain ⟨i, hi', rfl⟩ := List.mem_iff_getElem.mp hx
      simp only [List.length_zip, List.length_map] at hi'
      have h4 := congrArg (fun l => l[i]?) h1
      simp only [List.getElem?_map, List.getElem?_eq_getElem (show i < vs.length by omega), List.getElem?_zipIdx,
        List.getElem?_eq_getElem (show i < grid.length by omega), Option.map_some, Nat.zero_add,
        Option.some.injEq] at h4
      simp only [overRatioR, bind_eq_ok, Except.ok.injEq, cjStateDefaultR_ok] at h4
      obtain ⟨g, hg, g', hg', o, ho, e⟩ := h4
      rw [hg, Except.ok.injEq] at hg'
      subst hg'
      refine ⟨o, ⟨g, hg, by simpa using ho⟩, ?_⟩
      simp [← e]
    · rw [hz, mul_zero]
      have := H.rnd 0
      simpa using this
  · simp only [h2, err_bind] at h; cases h

theorem refineLoopR_step (H : fp.Accurate u κ) {task : ℕ → ℝ → Py (ℕ × ℝ)} (fuel : ℕ) (lo hi : ℝ) (last : Option Refined)
    (n : ℕ) :
    refineLoopR fp sum collect task 0 (fuel + 1) lo hi last n = (do
      let r ← refineR fp sum collect task lo hi
      refineLoopR fp sum collect task 0 fuel (fp.rnd (r.ratio * fp.rnd (1 - fp.rnd 0.001)))
        (fp.rnd (r.ratio * fp.rnd (1 + fp.rnd 0.001))) (some r) (n + 1)) := by
  have hd : (0 : ℝ) < fp.rnd 1e-7 := (H.round (Near.refl u _)).pos H.nonneg H.lt_one (by norm_num)
  rw [refineLoopR, if_pos (.inr hd)]

theorem mul_rnd_bound (H : fp.Accurate u κ) (hu : u ≤ 1 / 1000) {c d x : ℝ} (h : |d - c| ≤ 0.002 * u) (hc : |c| ≤ 1.01) :
    |fp.rnd (x * fp.rnd d) - c * x| ≤ 3 * u * |x| := by
  have u0 := H.nonneg
  have d1 : |d| ≤ 1.02 := by
    have := abs_sub_abs_le_abs_sub d c
    linarith
  have e1 : |fp.rnd d - d| ≤ 1.02 * u := (H.rnd d).trans (by nlinarith)
  have e2 : |fp.rnd d - c| ≤ 1.03 * u := (abs_sub_le _ d _).trans (by linarith)
  have d2 : |fp.rnd d| ≤ 1.03 := by
    have := abs_sub_abs_le_abs_sub (fp.rnd d) d
    linarith
  have e3 := H.rnd (x * fp.rnd d)
  rw [abs_mul] at e3
  have e4 : |x * fp.rnd d - c * x| ≤ 1.03 * u * |x| := by
    rw [show x * fp.rnd d - c * x = (fp.rnd d - c) * x by ring, abs_mul]
    exact mul_le_mul_of_nonneg_right e2 (abs_nonneg _)
  have e5 : u * (|x| * |fp.rnd d|) ≤ 1.03 * u * |x| := by
    calc u * (|x| * |fp.rnd d|) ≤ u * (|x| * 1.03) := by gcongr
      _ = _ := by ring
  have := abs_sub_le (fp.rnd (x * fp.rnd d)) (x * fp.rnd d) (c * x)
  have := mul_nonneg u0 (abs_nonneg x)
  linarith

theorem grid_lo (H : fp.Accurate u κ) (hu : u ≤ 1 / 1000) (x : ℝ) :
    |fp.rnd (x * fp.rnd (1 - fp.rnd 0.001)) - 0.999 * x| ≤ 3 * u * |x| := by
  refine mul_rnd_bound H hu ?_ (by norm_num)
  have := H.rnd 0.001
  rw [show (1 : ℝ) - fp.rnd 0.001 - 0.999 = -(fp.rnd 0.001 - 0.001) by ring, abs_neg]
  refine this.trans ?_
  rw [abs_of_pos (by norm_num)]
  nlinarith [H.nonneg]

theorem grid_hi (H : fp.Accurate u κ) (hu : u ≤ 1 / 1000) (x : ℝ) :
    |fp.rnd (x * fp.rnd (1 + fp.rnd 0.001)) - 1.001 * x| ≤ 3 * u * |x| := by
  refine mul_rnd_bound H hu ?_ (by norm_num)
  have := H.rnd 0.001
  rw [show (1 : ℝ) + fp.rnd 0.001 - 1.001 = fp.rnd 0.001 - 0.001 by ring]
  refine this.trans ?_
  rw [abs_of_pos (by norm_num)]
  nlinarith [H.nonneg]

/-- Four refinements in a row, on the 21-point grids from 1.5 to 2 and then from 0.999 to 1.001 times the last vertex, up
to `3 u`: grids from `lo` to `hi`, velocities, parabola and its vertex. -/
structure FourRefinementsR (fp : FP) (sum : List ℝ → ℝ) (ct : Cantera) (P T : ℝ) (species : ct.Species)
    (mechanism : String) (u : ℝ) (lo hi : Fin 4 → ℝ) (vel : Fin 4 → List ℝ) (fit : Fin 4 → Fit) (x : Fin 4 → ℝ) : Prop where
  refinement : ∀ k, RefinementR fp sum ct P T species mechanism (linspaceR fp (lo k) (hi k)) (vel k) (fit k) (x k)
  first : lo 0 = fp.rnd 1.5 ∧ hi 0 = 2
  next : ∀ k : Fin 3, |lo k.succ - 0.999 * x k.castSucc| ≤ 3 * u * |x k.castSucc| ∧
    |hi k.succ - 1.001 * x k.castSucc| ≤ 3 * u * |x k.castSucc|

/-- C127: rounding does not change the number of refinements: whenever `cj_speed` returns there were exactly four, on the
grids from 1.5 to 2 and then from 0.999 to 1.001 times the last vertex, up to `3 u`; the speed is the rounded value of the
last parabola at its vertex; R^2 is returned iff asked for, the state (of `cj_state` at the vertex) iff asked for. -/
theorem C127_four_refinements (H : fp.Accurate u κ) (hu : u ≤ 1 / 1000) (hc : Fair collect)
    (h : cjSpeedR fp sum ct collect P T species mechanism returnR returnState = .ok out) :
    ∃ lo hi : Fin 4 → ℝ, ∃ vel : Fin 4 → List ℝ, ∃ fit : Fin 4 → Fit, ∃ x : Fin 4 → ℝ,
      FourRefinementsR fp sum ct P T species mechanism u lo hi vel fit x ∧
      out.speed = fp.rnd (fp.rnd (fp.rnd ((fit 3).a * fp.rnd (x 3 ^ 2)) + fp.rnd ((fit 3).b * x 3)) + (fit 3).c) ∧
      out.rSquared = (if returnR = true then some (fit 3).r2 else none) ∧
      (returnState = false → out.state = none) ∧
      (returnState = true → ∃ o, CJAtR fp ct P T species mechanism (x 3) o ∧ out.state = some o.gas) := by
  simp only [cjSpeedR, bind_eq_ok, refineLoopR_step H] at h
  obtain ⟨l, ⟨r1, h1, r2, h2, r3, h3, r4, h4, h5⟩, h⟩ := h
  simp only [refineLoopR, Except.ok.injEq] at h5
  subst h5
  simp only [bind_eq_ok, Except.ok.injEq] at h
  obtain ⟨st, hst, rfl⟩ := h
  obtain ⟨v1, R1⟩ := refineR_refinement H hc h1
  obtain ⟨v2, R2⟩ := refineR_refinement H hc h2
  obtain ⟨v3, R3⟩ := refineR_refinement H hc h3
  obtain ⟨v4, R4⟩ := refineR_refinement H hc h4
  refine ⟨![fp.rnd 1.5, fp.rnd (r1.ratio * fp.rnd (1 - fp.rnd 0.001)), fp.rnd (r2.ratio * fp.rnd (1 - fp.rnd 0.001)),
      fp.rnd (r3.ratio * fp.rnd (1 - fp.rnd 0.001))],
    ![2, fp.rnd (r1.ratio * fp.rnd (1 + fp.rnd 0.001)), fp.rnd (r2.ratio * fp.rnd (1 + fp.rnd 0.001)),
      fp.rnd (r3.ratio * fp.rnd (1 + fp.rnd 0.001))], ![v1, v2, v3, v4], ![r1.fit, r2.fit, r3.fit, r4.fit],
    ![r1.ratio, r2.ratio, r3.ratio, r4.ratio], ⟨?_, ⟨rfl, rfl⟩, ?_⟩, rfl, rfl, fun hs => ?_, fun hs => ?_⟩
  · intro k
    fin_cases k
    · exact R1
    · exact R2
    · exact R3
    · exact R4
  · intro k
    fin_cases k
    · exact ⟨grid_lo H hu _, grid_hi H hu _⟩
    · exact ⟨grid_lo H hu _, grid_hi H hu _⟩
    · exact ⟨grid_lo H hu _, grid_hi H hu _⟩
  · rw [hs] at hst
    simpa [stateAtR] using hst.symm
  · rw [hs] at hst
    simp only [stateAtR, if_true, bind_eq_ok, Except.ok.injEq, cjStateDefaultR_ok] at hst
    obtain ⟨g, hg, g', hg', o, ho, rfl⟩ := hst
    rw [hg, Except.ok.injEq] at hg'
    subst hg'
    exact ⟨o, ⟨g, hg, ho⟩, rfl⟩

/-! ### the grid -/

/-- C127: the grid of every refinement has 21 density ratios, the last is `hi`, and for `0 ≤ lo ≤ hi` each of them is the
equally spaced one up to four roundings. -/
theorem C127_grid (H : fp.Accurate u κ) {lo hi : ℝ} (h0 : 0 ≤ lo) (hh : lo ≤ hi) :
    (linspaceR fp lo hi).length = 21 ∧ (linspaceR fp lo hi)[20]? = some hi ∧
    ∀ (i : ℕ) x, (linspaceR fp lo hi)[i]? = some x →
      |x - (lo + i * (hi - lo) / 20)| ≤ amp u 4 * (lo + i * (hi - lo) / 20) := by
  have u0 := H.nonneg; have u1 := H.lt_one
  refine ⟨by simp [linspaceR], by simp [linspaceR], fun i x hx => ?_⟩
  have hi' : i < 21 := by
    have := (List.getElem?_eq_some_iff.mp hx).1
    simpa [linspaceR] using this
  have pos : 0 ≤ lo + i * (hi - lo) / 20 := by
    have : 0 ≤ (i : ℝ) * (hi - lo) / 20 := by
      have := mul_nonneg (Nat.cast_nonneg (α := ℝ) i) (sub_nonneg.mpr hh)
      linarith
    linarith
  rcases Nat.lt_or_ge i 20 with h20 | h20
  · rw [linspaceR, List.getElem?_append_left (by simpa using h20)] at hx
    simp only [List.getElem?_map, List.getElem?_range h20, Option.map_some, Option.some.injEq] at hx
    subst hx
    have n1 : Near u 1 (hi - lo) (fp.rnd (hi - lo)) := H.round (.refl u _)
    have n2 : Near u 2 ((hi - lo) / 20) (fp.rnd (fp.rnd (hi - lo) / 20)) := H.round (n1.div u0 u1 (.refl u 20))
    have n3 : Near u 3 (i * ((hi - lo) / 20)) (fp.rnd (i * fp.rnd (fp.rnd (hi - lo) / 20))) := by
      have := H.round ((Near.refl u (i : ℝ)).mul u0 u1 n2)
      simpa using this
    have n4 := AbsErr.round u0 u1 H (AbsErr.add u0 u1 (AbsErr.of_near u0 u1 n3) (AbsErr.refl u lo))
    have p : 0 ≤ (i : ℝ) * ((hi - lo) / 20) :=
      mul_nonneg (Nat.cast_nonneg _) (div_nonneg (sub_nonneg.mpr hh) (by norm_num))
    have := n4.2
    rw [abs_of_nonneg h0, abs_of_nonneg p] at this
    have m : max 3 0 + 1 = 4 := rfl
    rw [m] at this
    convert this using 2 <;> ring
  · obtain rfl : i = 20 := by omega
    have : x = hi := by
      have e : (linspaceR fp lo hi)[20]? = some hi := by simp [linspaceR]
      rw [e] at hx; simpa using hx.symm
    subst this
    have : x - (lo + ((20 : ℕ) : ℝ) * (x - lo) / 20) = 0 := by push_cast; ring
    rw [this, abs_zero]
    exact mul_nonneg (amp_nonneg u0 u1 4) pos

/-! ### the speed -/

/-- The parabola of `cj_curve_fit` at its computed vertex: the mean of the ordinates less the curvature times the mean
square distance from the vertex, up to rounding. -/
theorem vertex_value (H : fp.Accurate u κ) (hs : NpSum fp sum) {pts : List (ℝ × ℝ)} {fit : Fit} {v : ℝ}
    (hf : cjCurveFitR fp sum pts = .ok fit) (ha : fit.a ≠ 0) (hv : v = fp.rnd (-fit.b / fp.rnd (2 * fit.a))) :
    |pts.length * fp.rnd (fp.rnd (fp.rnd (fit.a * fp.rnd (v ^ 2)) + fp.rnd (fit.b * v)) + fit.c) -
        ((pts.map fun p => p.2).sum - fit.a * (pts.map fun p => (p.1 - v) ^ 2).sum)| ≤
      amp u (pts.length + 5) * (pts.map fun p => |p.2| + |fit.a| * p.1 ^ 2 + |fit.b| * |p.1|).sum +
      amp u 2 * (|fit.b| * |(pts.map fun p => p.1 - v).sum|) +
      pts.length * (amp u 4 * (|fit.a| * v ^ 2 + |fit.b| * |v| + |fit.c|)) := by
  have u0 := H.nonneg; have u1 := H.lt_one
  have r := C126_residual_sum H hs hf
  have n1 : Near u 2 (-fit.b / (2 * fit.a)) v := by
    have := H.round ((Near.refl u (-fit.b)).div u0 u1 (H.round (.refl u (2 * fit.a))))
    rw [← hv] at this
    simpa using this
  have d : |2 * fit.a * v + fit.b| ≤ amp u 2 * |fit.b| := by
    have e := (AbsErr.of_near u0 u1 n1).2
    have e2 := mul_le_mul_of_nonneg_left e (abs_nonneg (2 * fit.a))
    rw [← abs_mul] at e2
    have e3 : 2 * fit.a * (v - -fit.b / (2 * fit.a)) = 2 * fit.a * v + fit.b := by field_simp; ring
    have e4 : |2 * fit.a| * (amp u 2 * |(-fit.b) / (2 * fit.a)|) = amp u 2 * |fit.b| := by
      rw [abs_div, abs_neg]
      have : |2 * fit.a| ≠ 0 := abs_ne_zero.mpr (mul_ne_zero two_ne_zero ha)
      field_simp
    rw [e3, e4] at e2
    exact e2
  have s : AbsErr u 4 (|fit.a| * v ^ 2 + |fit.b| * |v| + |fit.c|) (fit.a * v ^ 2 + fit.b * v + fit.c)
      (fp.rnd (fp.rnd (fp.rnd (fit.a * fp.rnd (v ^ 2)) + fp.rnd (fit.b * v)) + fit.c)) := by
    have a1 := AbsErr.round u0 u1 H (AbsErr.mul u0 u1 (AbsErr.refl u fit.a) (AbsErr.round u0 u1 H (AbsErr.refl u (v ^ 2))))
    have a2 := AbsErr.round u0 u1 H (AbsErr.mul u0 u1 (AbsErr.refl u fit.b) (AbsErr.refl u v))
    have a3 := AbsErr.round u0 u1 H (AbsErr.add u0 u1 (AbsErr.round u0 u1 H (AbsErr.add u0 u1 a1 a2)) (AbsErr.refl u fit.c))
    rw [abs_of_nonneg (sq_nonneg v)] at a3
    exact a3
  have split : (pts.map fun p => p.2).sum - fit.a * (pts.map fun p => (p.1 - v) ^ 2).sum =
      pts.length * (fit.a * v ^ 2 + fit.b * v + fit.c) +
      (pts.map fun p => p.2 - (fit.a * p.1 ^ 2 + fit.b * p.1 + fit.c)).sum +
      (2 * fit.a * v + fit.b) * (pts.map fun p => p.1 - v).sum := by
    clear r hf
    induction pts with
    | nil => simp
    | cons p l ih => simp only [List.map_cons, List.sum_cons, List.length_cons, Nat.cast_add, Nat.cast_one]; linear_combination ih
  rw [split]
  generalize fp.rnd (fp.rnd (fp.rnd (fit.a * fp.rnd (v ^ 2)) + fp.rnd (fit.b * v)) + fit.c) = w at s ⊢
  generalize (pts.map fun p => p.2 - (fit.a * p.1 ^ 2 + fit.b * p.1 + fit.c)).sum = R at r ⊢
  generalize (pts.map fun p => p.1 - v).sum = D
  have d' : |(2 * fit.a * v + fit.b) * D| ≤ amp u 2 * (|fit.b| * |D|) := by
    rw [abs_mul, ← mul_assoc]; exact mul_le_mul_of_nonneg_right d (abs_nonneg _)
  have s' : |(pts.length : ℝ) * (w - (fit.a * v ^ 2 + fit.b * v + fit.c))| ≤
      pts.length * (amp u 4 * (|fit.a| * v ^ 2 + |fit.b| * |v| + |fit.c|)) := by
    rw [abs_mul, Nat.abs_cast]; exact mul_le_mul_of_nonneg_left s.2 (Nat.cast_nonneg _)
  rw [show (pts.length : ℝ) * w - (pts.length * (fit.a * v ^ 2 + fit.b * v + fit.c) + R + (2 * fit.a * v + fit.b) * D) =
    pts.length * (w - (fit.a * v ^ 2 + fit.b * v + fit.c)) - R - (2 * fit.a * v + fit.b) * D by ring]
  rw [abs_le] at r d' s' ⊢
  constructor <;> linarith [r.1, r.2, d'.1, d'.2, s'.1, s'.2]

/-- The value of a rounded parabola at its rounded vertex, for one refinement. -/
theorem RefinementR.speed (H : fp.Accurate u κ) (hs : NpSum fp sum) {lo hi : ℝ} {vel : List ℝ} {fit : Fit} {x : ℝ}
    (R : RefinementR fp sum ct P T species mechanism (linspaceR fp lo hi) vel fit x) (len : vel.length = 21) :
    |fp.rnd (fp.rnd (fp.rnd (fit.a * fp.rnd (x ^ 2)) + fp.rnd (fit.b * x)) + fit.c) -
        (vel.sum / 21 - fit.a * (((linspaceR fp lo hi).map fun r => (r - x) ^ 2).sum / 21))| ≤
        amp u 26 * ((((linspaceR fp lo hi).zip vel).map fun p => |p.2| + |fit.a| * p.1 ^ 2 + |fit.b| * |p.1|).sum / 21) +
        amp u 2 * (|fit.b| * |((linspaceR fp lo hi).map fun r => r - x).sum / 21|) +
        amp u 4 * (|fit.a| * x ^ 2 + |fit.b| * |x| + |fit.c|) := by
  have V := vertex_value H hs R.fitted R.a_ne_zero R.at_vertex
  have L := R.length
  have gl : ∀ a b : ℝ, (linspaceR fp a b).length = 21 := fun a b => by simp [linspaceR]
  generalize hg : linspaceR fp lo hi = grid at R V L ⊢
  have len' : grid.length = 21 := by rw [← hg]; exact gl _ _
  have lz : (grid.zip vel).length = 21 := by simp [len, len']
  have m1 : ∀ f : ℝ → ℝ, ((grid.zip vel).map fun p => f p.1) = grid.map f := fun f => by
    have : (grid.zip vel).map Prod.fst = grid := List.map_fst_zip (by omega)
    conv_rhs => rw [← this]
    rw [List.map_map]; rfl
  have m2 : ((grid.zip vel).map fun p => p.2) = vel := List.map_snd_zip (by omega)
  rw [lz, m1 (fun r => (r - x) ^ 2), m1 (fun r => r - x), m2] at V
  generalize (grid.map fun r => r - x).sum = D at V ⊢
  generalize ((grid.zip vel).map fun p => |p.2| + |fit.a| * p.1 ^ 2 + |fit.b| * |p.1|).sum = S at V ⊢
  generalize (grid.map fun r => (r - x) ^ 2).sum = Q at V ⊢
  have eD : |D / 21| = |D| / 21 := by rw [abs_div, abs_of_pos (by norm_num : (0:ℝ) < 21)]
  rw [eD]
  push_cast at V
  generalize fp.rnd (_ + fit.c) = w at V ⊢
  rw [abs_le] at V ⊢
  constructor <;> linarith [V.1, V.2]

/-- C127: the returned speed is the mean of the 21 velocities of the last refinement, less the curvature of the fitted
parabola times the mean square distance of the density ratios from its vertex, up to rounding -- however much the rounding
inside `cj_curve_fit` has changed the coefficients. -/
theorem C127_speed (H : fp.Accurate u κ) (hu : u ≤ 1 / 1000) (hs : NpSum fp sum) (hc : Fair collect)
    (h : cjSpeedR fp sum ct collect P T species mechanism returnR returnState = .ok out) :
    ∃ lo hi : Fin 4 → ℝ, ∃ vel : Fin 4 → List ℝ, ∃ fit : Fin 4 → Fit, ∃ x : Fin 4 → ℝ,
      FourRefinementsR fp sum ct P T species mechanism u lo hi vel fit x ∧ (vel 3).length = 21 ∧
      (returnR = true → out.rSquared = some (fit 3).r2) ∧
      (returnState = true → ∃ o, CJAtR fp ct P T species mechanism (x 3) o ∧ out.state = some o.gas) ∧
      |out.speed - ((vel 3).sum / 21 -
          (fit 3).a * (((linspaceR fp (lo 3) (hi 3)).map fun r => (r - x 3) ^ 2).sum / 21))| ≤
        amp u 26 * ((((linspaceR fp (lo 3) (hi 3)).zip (vel 3)).map fun p =>
          |p.2| + |(fit 3).a| * p.1 ^ 2 + |(fit 3).b| * |p.1|).sum / 21) +
        amp u 2 * (|(fit 3).b| * |((linspaceR fp (lo 3) (hi 3)).map fun r => r - x 3).sum / 21|) +
        amp u 4 * (|(fit 3).a| * x 3 ^ 2 + |(fit 3).b| * |x 3| + |(fit 3).c|) := by
  obtain ⟨lo, hi, vel, fit, x, F, e, er, -, es⟩ := C127_four_refinements H hu hc h
  have len : (vel 3).length = 21 := by rw [(F.refinement 3).length]; simp [linspaceR]
  refine ⟨lo, hi, vel, fit, x, F, len, fun hr => by rw [er, if_pos hr], es, ?_⟩
  rw [e]
  exact (F.refinement 3).speed H hs len

theorem near_mean {grid vel : List ℝ} {a x w s ε : ℝ} (hg : grid.length = 21) (hw : ∀ r ∈ grid, |r - x| ≤ w)
    (h : |s - (vel.sum / 21 - a * ((grid.map fun r => (r - x) ^ 2).sum / 21))| ≤ ε) :
    |s - vel.sum / 21| ≤ |a| * w ^ 2 + ε := by
  have b : ∀ l : List ℝ, (∀ r ∈ l, |r - x| ≤ w) →
      0 ≤ (l.map fun r => (r - x) ^ 2).sum ∧ (l.map fun r => (r - x) ^ 2).sum ≤ l.length * w ^ 2 := by
    intro l
    induction l with
    | nil => simp
    | cons y l ih =>
      intro hl
      obtain ⟨i1, i2⟩ := ih fun r hr => hl r (by simp [hr])
      have : (y - x) ^ 2 ≤ w ^ 2 := by
        rw [← sq_abs (y - x)]
        exact pow_le_pow_left₀ (abs_nonneg _) (hl y (by simp)) 2
      simp only [List.map_cons, List.sum_cons, List.length_cons]
      push_cast
      constructor <;> nlinarith [sq_nonneg (y - x)]
  obtain ⟨b1, b2⟩ := b grid hw
  rw [hg] at b2
  push_cast at b2
  set Q := (grid.map fun r => (r - x) ^ 2).sum / 21 with hQ
  have q0 : 0 ≤ Q := by positivity
  have q1 : Q ≤ w ^ 2 := by rw [hQ]; linarith
  have e : |a * Q| ≤ |a| * w ^ 2 := by rw [abs_mul, abs_of_nonneg q0]; exact mul_le_mul_of_nonneg_left q1 (abs_nonneg _)
  rw [abs_le] at h e ⊢
  constructor <;> linarith [h.1, h.2, e.1, e.2]

/-- C127: so if the density ratios of the last refinement lie within `w` of the vertex, the speed lies within `|a| w²` of
the mean of the 21 velocities, up to rounding. -/
theorem C127_near_mean (H : fp.Accurate u κ) (hu : u ≤ 1 / 1000) (hs : NpSum fp sum) (hc : Fair collect)
    (h : cjSpeedR fp sum ct collect P T species mechanism returnR returnState = .ok out) :
    ∃ lo hi : Fin 4 → ℝ, ∃ vel : Fin 4 → List ℝ, ∃ fit : Fin 4 → Fit, ∃ x : Fin 4 → ℝ,
      FourRefinementsR fp sum ct P T species mechanism u lo hi vel fit x ∧ (vel 3).length = 21 ∧
      ∀ w, (∀ r ∈ linspaceR fp (lo 3) (hi 3), |r - x 3| ≤ w) →
        |out.speed - (vel 3).sum / 21| ≤ |(fit 3).a| * w ^ 2 +
          (amp u 26 * ((((linspaceR fp (lo 3) (hi 3)).zip (vel 3)).map fun p =>
            |p.2| + |(fit 3).a| * p.1 ^ 2 + |(fit 3).b| * |p.1|).sum / 21) +
          amp u 2 * (|(fit 3).b| * |((linspaceR fp (lo 3) (hi 3)).map fun r => r - x 3).sum / 21|) +
          amp u 4 * (|(fit 3).a| * x 3 ^ 2 + |(fit 3).b| * |x 3| + |(fit 3).c|)) := by
  obtain ⟨lo, hi, vel, fit, x, F, len, -, -, e⟩ := C127_speed H hu hs hc h
  exact ⟨lo, hi, vel, fit, x, F, len, fun w hw => near_mean (by simp [linspaceR]) hw e⟩

/-- C127: the returned state has the initial density times the vertex ratio, up to `4 u`, and positive temperature. -/
theorem C127_state (H : fp.Accurate u κ) (hu : u ≤ 1 / 1000) (hl : LawfulPosTV ct) {x : ℝ} {o : CJOut ct} {g : ct.Gas}
    (hg : initialGas ct T P species mechanism = .ok g) (hρ : 0 < ct.density g) (hx : 0 < x)
    (h : CJAtR fp ct P T species mechanism x o) :
    0 < ct.T o.gas ∧ |ct.density o.gas - ct.density g * x| ≤ 4 * u * (ct.density g * x) := by
  obtain ⟨g', hg', h⟩ := h
  rw [hg, Except.ok.injEq] at hg'
  subst hg'
  exact C124_cj_returned_gas H hu hl (by norm_num) hρ hx h

/-! ### witnesses -/

/-- There is a run that returns, with the gas of the example of `Props/CJSpeed.lean`, to which the theorems apply. -/
example (P : ℝ) (mechanism : String) :
    ∃ out, cjSpeedR FP.exact List.sum (tvGas exP exH) serial P 300 () mechanism true true = .ok out ∧ out.speed = 2000 ∧
      FP.exact.Accurate 0 0 ∧ NpSum FP.exact List.sum ∧ Fair serial := by
  obtain ⟨out, o, h1, h2, -⟩ := C63_exact_for_parabola (ct := tvGas exP exH) (P := P) (T := 300) (species := ())
    (mechanism := mechanism) serial_fair (a := 1000) (b := -3600) (c := 5240) (by norm_num) (by norm_num)
    (ex_hyp (tvGas_isTV exP exH) (by norm_num))
  exact ⟨out, (C127_exact npSum_exact).trans h1, by rw [h2]; norm_num, exact_arithmetic.1, npSum_exact, serial_fair⟩

/-- Double precision, and a `np.sum` for it, meet the hypotheses. -/
example : ∃ κ sum, FP.double.Accurate ((1 / 2) ^ 53) κ ∧ ((1 : ℝ) / 2) ^ 53 ≤ 1 / 1000 ∧ NpSum FP.double sum ∧
    0 ≤ (1.5 : ℝ) ∧ (1.5 : ℝ) ≤ 2 := by
  obtain ⟨s, hs⟩ := npSum_exists FP.double
  exact ⟨1, s, FP.double_accurate, by norm_num, hs, by norm_num, by norm_num⟩

end Pypbomb.SD
