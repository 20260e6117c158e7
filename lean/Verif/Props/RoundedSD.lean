/-
Rounding in the two Newton iterations of sd.py (C124).
-/
import Verif.Model.RoundedSD
import Verif.Lemmas.Near
import Verif.Lemmas.Grid
import Verif.Props.SD
import Verif.Props.Converged

namespace Pypbomb.SD

variable {ct : Cantera} {fp : FP}

/-! ### exact arithmetic -/

section Exact

theorem exact_rnd (x : ℝ) : FP.exact.rnd x = x := rfl

theorem pyDivR_exact (x y : ℝ) : pyDivR FP.exact x y = pyDiv x y := by
  unfold pyDivR; cases pyDiv x y <;> rfl

theorem pyInvR_exact (x : ℝ) : pyInvR FP.exact x = pyInv x := by
  unfold pyInvR; cases pyInv x <;> rfl

theorem errEquilibriumR_exact (w i : ct.Gas) (v : ℝ) : errEquilibriumR FP.exact ct w i v = errEquilibrium ct w i v := by
  simp only [errEquilibriumR, errEquilibrium, pyDivR_exact, exact_rnd]

theorem errReflectedR_exact (u : ℝ) (w p : ct.Gas) : errReflectedR FP.exact ct u w p = errReflected ct u w p := by
  simp only [errReflectedR, errReflected, pyDivR_exact, exact_rnd]

theorem newtonR_exact (a b c d x y : ℝ) : newtonR FP.exact a b c d x y = newton a b c d x y := by
  simp only [newtonR, newton, pyDivR_exact, exact_rnd]

theorem limitDivR_exact (d m : ℝ) : limitDivR FP.exact d m = limit d m := by
  simp only [limitDivR, limit, pyDivR_exact, exact_rnd]

theorem limitMulR_exact (d m : ℝ) : limitMulR FP.exact d m = limit d m := by
  simp only [limitMulR, limit, pyDivR_exact, exact_rnd]
  split
  · unfold pyDiv
    split
    · rfl
    · rw [ok_bind]; congr 1; ring
  · rfl

theorem cjBodyR_exact (i : ct.Gas) (ρ : ℝ) (s : CJ ct) : cjBodyR FP.exact ct i ρ s = cjBody ct i ρ s := by
  simp only [cjBodyR, cjBody, pyDivR_exact, exact_rnd, errEquilibriumR_exact, newtonR_exact, limitMulR_exact]

/-- C124: with exact arithmetic the rounded `cj_state` is `cj_state`. -/
theorem C124_exact_cj (working initial : ct.Gas) (tolT tolV ratio : ℝ) (maxIter : ℤ) (fuel : ℕ) :
    cjStateR FP.exact ct working initial tolT tolV ratio maxIter fuel =
      cjState ct working initial tolT tolV ratio maxIter fuel := by
  have hl : ∀ (n : ℕ) ρ (s : CJ ct), cjLoopR FP.exact ct initial ρ tolT tolV maxIter n s =
      cjLoop ct initial ρ tolT tolV maxIter n s := by
    intro n
    induction n with
    | zero => intros; rfl
    | succ n ih =>
      intro ρ s
      have hu : s.unconvergedR FP.exact tolT tolV = s.unconverged tolT tolV := rfl
      simp only [cjLoopR, cjLoop, cjBodyR_exact, ih, hu]
      cases cjBody ct initial ρ s <;> rfl
  have hs : (do
      let density ← guessDensityR FP.exact ct initial ratio
      let g ← equilibrium ct working density 2000
      .ok (density, (⟨g, 2000, 2000, 1000, 1000, 0⟩ : CJ ct)) : Py (ℝ × CJ ct)) = cjStart ct working initial ratio := by
    simp only [cjStart, guessDensityR, guessDensity, pyDivR_exact, pyInvR_exact]
  simp only [cjStateR, cjState, hs, hl]
  cases cjStart ct working initial ratio <;> rfl

theorem rsBodyR_exact (u : ℝ) (post : ct.Gas) (pv : ℝ) {s : RS ct} (hV : s.V ≠ 0) :
    rsBodyR FP.exact ct u post pv (1 / s.V) s =
      (do let s' ← rsBody ct u post pv s; .ok (1 / s'.V, s')) := by
  simp only [rsBodyR, rsBody, pyDivR_exact, pyInvR_exact, exact_rnd, errReflectedR_exact, newtonR_exact,
    limitDivR_exact, volumeLimitR, volumeLimit, pyInv_ok hV, ok_bind]
  simp only [bind_assoc, ok_bind]
  refine bind_congr fun e => bind_congr fun g => bind_congr fun eT => bind_congr fun hT => bind_congr fun pT =>
    bind_congr fun dens => bind_congr fun g' => bind_congr fun eV => bind_congr fun hV => bind_congr fun pV =>
    bind_congr fun d => bind_congr fun dT => bind_congr fun dV => ?_
  by_cases h : s.V + dV = 0
  · simp only [pyInv, h, if_true, err_bind]
  · simp only [pyInv_ok h, ok_bind]

/-- C124: with exact arithmetic the rounded `get_eq_state` is `get_eq_state`. -/
theorem C124_exact_reflected (u : ℝ) (post working : ct.Gas) (tolT tolV : ℝ) (maxIter : ℤ) (fuel : ℕ) :
    getEqStateR FP.exact ct u post working tolT tolV maxIter fuel =
      getEqState ct u post working tolT tolV maxIter fuel := by
  have hl : ∀ (n : ℕ) pv (s : RS ct), s.V ≠ 0 → rsLoopR FP.exact ct u post pv tolT tolV maxIter n (1 / s.V) s =
      rsLoop ct u post pv tolT tolV maxIter n s := by
    intro n
    induction n with
    | zero => intros; rfl
    | succ n ih =>
      intro pv s hs
      have hu : s.unconvergedR FP.exact tolT tolV = s.unconverged tolT tolV := rfl
      simp only [rsLoopR, rsLoop, rsBodyR_exact u post pv hs, hu]
      cases hb : rsBody ct u post pv s with
      | error e => rfl
      | ok s' =>
        have : s'.V ≠ 0 := by
          simp only [rsBody, bind_eq_ok, pyInv_eq_ok] at hb
          obtain ⟨_, -, _, -, _, -, _, -, _, -, _, -, _, -, _, -, _, -, _, -, _, -, _, -, _, -, _, -, _, ⟨h, -⟩, _, -, hb⟩ := hb
          cases hb
          exact h
        simp only [ok_bind, ih pv s' this]
        rfl
  simp only [getEqStateR, getEqState, rsStart, pyInvR_exact]
  by_cases h1 : ct.density post = 0
  · simp only [pyInv, h1, if_true, err_bind]
  by_cases h2 : ct.density working = 0
  · simp only [pyInv, h1, h2, if_true, if_false, ok_bind, err_bind]
  simp only [pyInv_ok h1, pyInv_ok h2, ok_bind]
  cases equilibrium ct working (ct.density working) (ct.T working) with
  | error e => rfl
  | ok g =>
    simp only [ok_bind]
    rw [← hl fuel _ _ (one_div_ne_zero h2)]
    simp

end Exact

/-! ### iterates -/

theorem cjLoopR_eq (initial : ct.Gas) (density tolT tolV : ℝ) (maxIter : ℤ) (fuel : ℕ) (s : CJ ct) :
    cjLoopR fp ct initial density tolT tolV maxIter fuel s =
      iterLoop (cjBodyR fp ct initial density) (CJ.unconvergedR fp tolT tolV) CJ.count
        (fun s w => ⟨s.gas, s.v, w⟩) maxIter fuel s := by
  induction fuel generalizing s with
  | zero => rfl
  | succ n ih =>
    simp only [cjLoopR, iterLoop]
    split
    · split
      · rfl
      · cases cjBodyR fp ct initial density s with
        | error e => rfl
        | ok s' => exact ih s'
    · rfl

theorem rsLoopR_eq (speed : ℝ) (post : ct.Gas) (pv tolT tolV : ℝ) (maxIter : ℤ) (fuel : ℕ) (ρ : ℝ) (s : RS ct) :
    rsLoopR fp ct speed post pv tolT tolV maxIter fuel ρ s =
      iterLoop (fun x : ℝ × RS ct => rsBodyR fp ct speed post pv x.1 x.2) (fun x => x.2.unconvergedR fp tolT tolV)
        (fun x => x.2.count) (fun x w => ⟨x.2.gas, w⟩) maxIter fuel (ρ, s) := by
  induction fuel generalizing ρ s with
  | zero => rfl
  | succ n ih =>
    simp only [rsLoopR, iterLoop]
    split
    · split
      · rfl
      · cases rsBodyR fp ct speed post pv ρ s with
        | error e => rfl
        | ok s' => exact ih s'.1 s'.2
    · rfl

theorem pyDivR_eq_ok {x y z : ℝ} : pyDivR fp x y = .ok z ↔ y ≠ 0 ∧ z = fp.rnd (x / y) := by
  simp only [pyDivR, bind_eq_ok, pyDiv_eq_ok, Except.ok.injEq]
  constructor
  · rintro ⟨_, ⟨h, rfl⟩, rfl⟩; exact ⟨h, rfl⟩
  · rintro ⟨h, rfl⟩; exact ⟨_, ⟨h, rfl⟩, rfl⟩

theorem pyInvR_eq_ok {x z : ℝ} : pyInvR fp x = .ok z ↔ x ≠ 0 ∧ z = fp.rnd (1 / x) := by
  simp only [pyInvR, bind_eq_ok, pyInv_eq_ok, Except.ok.injEq]
  constructor
  · rintro ⟨_, ⟨h, rfl⟩, rfl⟩; exact ⟨h, rfl⟩
  · rintro ⟨h, rfl⟩; exact ⟨_, ⟨h, rfl⟩, rfl⟩

theorem cjBodyR_ok {initial : ct.Gas} {density : ℝ} {s s' : CJ ct} (h : cjBodyR fp ct initial density s = .ok s') :
    ∃ d g, limitMulR fp d (fp.rnd (fp.rnd 0.2 * s.T)) = .ok s'.dT ∧ s'.T = fp.rnd (s.T + s'.dT) ∧
      s'.v = fp.rnd (s.v + s'.dv) ∧ equilibrium ct g density s'.T = .ok s'.gas ∧ s'.count = s.count + 1 := by
  simp only [cjBodyR, bind_eq_ok] at h
  obtain ⟨_, -, _, -, _, -, _, -, _, -, g, -, _, -, _, -, _, -, d, -, dT, hd, g', hg, h⟩ := h
  cases h
  exact ⟨d.1, _, hd, rfl, rfl, hg, rfl⟩

theorem rsBodyR_ok {u pv ρ ρ' : ℝ} {post : ct.Gas} {s s' : RS ct}
    (h : rsBodyR fp ct u post pv ρ s = .ok (ρ', s')) :
    ∃ d dV g, limitDivR fp d (fp.rnd (fp.rnd 0.2 * s.T)) = .ok s'.dT ∧
      limitDivR fp (fp.rnd dV) (volumeLimitR fp pv s.V (fp.rnd dV)) = .ok s'.dV ∧ s'.T = fp.rnd (s.T + s'.dT) ∧
      s'.V = fp.rnd (s.V + s'.dV) ∧ s'.V ≠ 0 ∧ ρ' = fp.rnd (1 / s'.V) ∧ equilibrium ct g ρ' s'.T = .ok s'.gas ∧
      s'.count = s.count + 1 := by
  simp only [rsBodyR, bind_eq_ok] at h
  obtain ⟨_, -, _, -, _, -, _, -, _, -, _, -, _, -, _, -, _, -, _, -, d, hn, dT, hd, dV, hV, ρ1, hρ, g', hg, h⟩ := h
  cases h
  simp only [newtonR, bind_eq_ok, pyDivR_eq_ok] at hn
  obtain ⟨_, -, _, ⟨-, rfl⟩, hn⟩ := hn
  cases hn
  obtain ⟨a, b⟩ := pyInvR_eq_ok.mp hρ
  exact ⟨_, _, _, hd, hV, rfl, rfl, a, b, hg, rfl⟩

/-! ### termination -/

/-- C124: whatever the rounding, `cj_state` with an iteration limit of at least 1 ends. -/
theorem C124_terminates_cj {working initial : ct.Gas} {tolT tolV ratio : ℝ} {maxIter : ℤ} {fuel : ℕ}
    (hm : 1 ≤ maxIter) (hf : maxIter ≤ fuel) :
    ∃ r, cjStateR fp ct working initial tolT tolV ratio maxIter fuel = some r := by
  unfold cjStateR
  split
  · exact ⟨_, rfl⟩
  · next hs =>
    simp only [bind_eq_ok] at hs
    obtain ⟨_, -, _, -, hs⟩ := hs
    cases hs
    rw [cjLoopR_eq]
    apply iterLoop_terminates (fun s s' h => (cjBodyR_ok h).choose_spec.choose_spec.2.2.2.2) <;> push_cast <;> omega

/-- C124: and so does `get_eq_state`. -/
theorem C124_terminates_reflected {u : ℝ} {post working : ct.Gas} {tolT tolV : ℝ} {maxIter : ℤ} {fuel : ℕ}
    (hm : 1 ≤ maxIter) (hf : maxIter ≤ fuel) :
    ∃ r, getEqStateR fp ct u post working tolT tolV maxIter fuel = some r := by
  unfold getEqStateR
  split
  · exact ⟨_, rfl⟩
  · next hs =>
    simp only [bind_eq_ok] at hs
    obtain ⟨_, -, _, -, _, -, hs⟩ := hs
    cases hs
    rw [rsLoopR_eq]
    apply iterLoop_terminates (fun s s' h => (rsBodyR_ok h).choose_spec.choose_spec.choose_spec.2.2.2.2.2.2.2)
      <;> push_cast <;> omega

/-! ### the arithmetic of a limited step -/

section Arith

variable {u : ℝ} {κ : ℕ} (H : fp.Accurate u κ) (hu : u ≤ 1 / 1000)
include H

theorem rnd_le {x : ℝ} (hx : 0 ≤ x) : fp.rnd x ≤ (1 + u) * x := by
  have := H.rnd x
  rw [abs_of_nonneg hx, abs_le] at this
  linarith [this.2]

theorem le_rnd {x : ℝ} (hx : 0 ≤ x) : (1 - u) * x ≤ fp.rnd x := by
  have := H.rnd x
  rw [abs_of_nonneg hx, abs_le] at this
  linarith [this.1]

theorem rnd_pos {x : ℝ} (hx : 0 < x) : 0 < fp.rnd x :=
  lt_of_lt_of_le (mul_pos (by linarith [H.lt_one]) hx) (le_rnd H hx.le)

theorem rnd_nonneg' {x : ℝ} (hx : 0 ≤ x) : 0 ≤ fp.rnd x :=
  le_trans (mul_nonneg (by linarith [H.lt_one]) hx) (le_rnd H hx)

theorem abs_rnd_le (x : ℝ) : |fp.rnd x| ≤ (1 + u) * |x| := by
  have h := H.rnd x
  have := abs_add_le (fp.rnd x - x) x
  rw [sub_add_cancel] at this
  linarith

theorem limitMulR_le {d m d' : ℝ} (hm : 0 ≤ m) (h : limitMulR fp d m = .ok d') : |d'| ≤ (1 + u) ^ 2 * m := by
  have h0 := H.nonneg
  unfold limitMulR at h
  split at h
  · next hd =>
    simp only [bind_eq_ok, pyDivR_eq_ok] at h
    obtain ⟨_, ⟨hne, rfl⟩, h⟩ := h
    cases h
    have hp : 0 < |d| := lt_of_le_of_lt hm hd
    have hq : 0 ≤ m / |d| := by positivity
    have q1 := rnd_le H hq
    have q0 := rnd_nonneg' H hq
    refine (abs_rnd_le H _).trans ?_
    rw [abs_mul, abs_of_nonneg q0]
    calc (1 + u) * (|d| * fp.rnd (m / |d|)) ≤ (1 + u) * (|d| * ((1 + u) * (m / |d|))) := by gcongr
      _ = (1 + u) ^ 2 * m := by field_simp
  · next hd =>
    cases h
    have : 1 ≤ (1 + u) ^ 2 := by nlinarith
    nlinarith [not_lt.mp hd]

theorem limitDivR_le {d m d' : ℝ} (hm : 0 ≤ m) (h : limitDivR fp d m = .ok d') : |d'| ≤ (1 + u) ^ 2 * m := by
  have h0 := H.nonneg
  unfold limitDivR at h
  split at h
  · next hd =>
    obtain ⟨hne, rfl⟩ := pyDivR_eq_ok.mp h
    have hp : 0 < |d| := lt_of_le_of_lt hm hd
    refine (abs_rnd_le H _).trans ?_
    rw [abs_div, abs_abs]
    have := abs_rnd_le H (m * d)
    rw [abs_mul, abs_of_nonneg hm] at this
    calc (1 + u) * (|fp.rnd (m * d)| / |d|) ≤ (1 + u) * ((1 + u) * (m * |d|) / |d|) := by gcongr
      _ = (1 + u) ^ 2 * m := by field_simp
  · next hd =>
    cases h
    have : 1 ≤ (1 + u) ^ 2 := by nlinarith
    nlinarith [not_lt.mp hd]

theorem change_le {x d y t : ℝ} (ey : y = fp.rnd (x + d)) (hd : |d| ≤ fp.rnd (t * y)) :
    |y - x| ≤ ((1 + u) * |t| + u / (1 - u)) * |y| := by
  have h0 := H.nonneg; have h1 := H.lt_one
  have a : |d| ≤ (1 + u) * (|t| * |y|) := by
    rw [← abs_mul]; exact (hd.trans (le_abs_self _)).trans (abs_rnd_le H _)
  have b := H.rnd (x + d)
  rw [← ey] at b
  have c : |x + d| ≤ |y| / (1 - u) := by
    rw [le_div_iff₀ (by linarith)]
    have := abs_sub_abs_le_abs_sub (x + d) y
    rw [abs_sub_comm (x + d) y] at this
    nlinarith
  have t1 := abs_add_le (y - (x + d)) d
  have e : y - (x + d) + d = y - x := by ring
  rw [e] at t1
  have : u * |x + d| ≤ u * (|y| / (1 - u)) := by gcongr
  calc |y - x| ≤ u * (|y| / (1 - u)) + (1 + u) * (|t| * |y|) := by linarith
    _ = _ := by ring

include hu

/-- A limit of 20 %, rounded. -/
theorem fifth_le {T : ℝ} (hT : 0 < T) :
    0 < fp.rnd (fp.rnd 0.2 * T) ∧ (1 + u) ^ 2 * fp.rnd (fp.rnd 0.2 * T) ≤ (0.2 + u) * T := by
  have h0 := H.nonneg
  have a : fp.rnd 0.2 ≤ (1 + u) * 0.2 := rnd_le H (by norm_num)
  have a0 : 0 < fp.rnd 0.2 := rnd_pos H (by norm_num)
  have b := rnd_le H (show 0 ≤ fp.rnd 0.2 * T by positivity)
  refine ⟨rnd_pos H (by positivity), ?_⟩
  calc (1 + u) ^ 2 * fp.rnd (fp.rnd 0.2 * T) ≤ (1 + u) ^ 2 * ((1 + u) * ((1 + u) * 0.2 * T)) := by
        gcongr; exact b.trans (by gcongr)
    _ = ((1 + u) ^ 4 * 0.2) * T := by ring
    _ ≤ (0.2 + u) * T := by
        gcongr
        nlinarith [mul_nonneg h0 h0, mul_nonneg (mul_nonneg h0 h0) h0, mul_nonneg (mul_nonneg h0 h0) (mul_nonneg h0 h0),
          mul_le_mul_of_nonneg_left hu h0, mul_le_mul_of_nonneg_left hu (mul_nonneg h0 h0),
          mul_le_mul_of_nonneg_left hu (mul_nonneg (mul_nonneg h0 h0) h0)]

theorem step_bounds {T d : ℝ} (hT : 0 < T) (hd : |d| ≤ (0.2 + u) * T) :
    0 < fp.rnd (T + d) ∧ |fp.rnd (T + d) - T| ≤ (0.2 + 3 * u) * T := by
  have h0 := H.nonneg
  obtain ⟨l, r⟩ := abs_le.mp hd
  have p : 0 < T + d := by nlinarith
  refine ⟨rnd_pos H p, ?_⟩
  have h := H.rnd (T + d)
  rw [abs_of_pos p] at h
  have t := abs_add_le (fp.rnd (T + d) - (T + d)) d
  have e : fp.rnd (T + d) - (T + d) + d = fp.rnd (T + d) - T := by ring
  rw [e] at t
  have : u * (T + d) ≤ u * (2 * T) := by gcongr; nlinarith
  nlinarith

/-- The volume step: positive and not above the post-shock volume, up to the last bit. -/
theorem volume_step_rounded (M : fp.Monotone) (G : fp.Grid u) {V pv d d' : ℝ} (hV : 0 < V) (hle : V ≤ pv)
    (eV : fp.rnd V = V) (epv : fp.rnd pv = pv)
    (h : limitDivR fp (fp.rnd d) (volumeLimitR fp pv V (fp.rnd d)) = .ok d') :
    (0.8 - 3 * u) * V ≤ fp.rnd (V + d') ∧ fp.rnd (V + d') ≤ pv := by
  have h0 := H.nonneg
  have ed := G.idem d
  generalize fp.rnd d = d at *
  -- the sign of the limited step
  have sgn : ∀ {m}, 0 ≤ m → limitDivR fp d m = .ok d' → (0 ≤ d → 0 ≤ d') ∧ (d ≤ 0 → d' ≤ 0) := by
    intro m hm h
    unfold limitDivR at h
    split at h
    · obtain ⟨-, rfl⟩ := pyDivR_eq_ok.mp h
      constructor
      · intro hd
        exact rnd_nonneg' H (div_nonneg (rnd_nonneg' H (mul_nonneg hm hd)) (abs_nonneg _))
      · intro hd
        have a := M.mono (m * d) 0 (mul_nonpos_of_nonneg_of_nonpos hm hd)
        rw [M.zero] at a
        have b := M.mono (fp.rnd (m * d) / |d|) 0 (div_nonpos_of_nonpos_of_nonneg a (abs_nonneg _))
        rwa [M.zero] at b
    · cases h; exact ⟨id, id⟩
  by_cases hc : fp.rnd (V + d) > pv
  · have dpos : 0 < d := by
      by_contra hn
      have := M.mono (V + d) V (by linarith)
      rw [eV] at this; linarith
    rw [volumeLimitR, if_pos hc] at h
    have g0 : 0 ≤ pv - V := by linarith
    have a : fp.rnd 0.5 ≤ (1 + u) * 0.5 := rnd_le H (by norm_num)
    have a0 : 0 ≤ fp.rnd 0.5 := rnd_nonneg' H (by norm_num)
    have b := rnd_le H g0
    have b0 := rnd_nonneg' H g0
    have c := rnd_le H (mul_nonneg a0 b0)
    have c0 := rnd_nonneg' H (mul_nonneg a0 b0)
    have s0 := (sgn c0 h).1 dpos.le
    have l := limitDivR_le H c0 h
    rw [abs_of_nonneg s0] at l
    have key : d' ≤ pv - V := by
      calc d' ≤ (1 + u) ^ 2 * fp.rnd (fp.rnd 0.5 * fp.rnd (pv - V)) := l
        _ ≤ (1 + u) ^ 2 * ((1 + u) * ((1 + u) * 0.5 * ((1 + u) * (pv - V)))) := by
          gcongr; exact c.trans (by gcongr)
        _ = ((1 + u) ^ 5 * 0.5) * (pv - V) := by ring
        _ ≤ 1 * (pv - V) := by
          gcongr
          have : (1 + u) ^ 5 ≤ (1 + 1 / 1000) ^ 5 := by gcongr
          have e : ((1 : ℝ) + 1 / 1000) ^ 5 ≤ 2 := by norm_num
          linarith
        _ = pv - V := one_mul _
    have up := M.mono (V + d') pv (by linarith)
    have lo := M.mono V (V + d') (by linarith)
    rw [epv] at up; rw [eV] at lo
    exact ⟨by nlinarith, up⟩
  · rw [volumeLimitR, if_neg hc] at h
    obtain ⟨m0, m1⟩ := fifth_le H hu hV
    have l := (limitDivR_le H m0.le h).trans m1
    obtain ⟨p, q⟩ := step_bounds H hu hV l
    refine ⟨by linarith [(abs_le.mp q).1], ?_⟩
    have hc := not_lt.mp hc
    rcases le_or_gt d 0 with hd | hd
    · have up := M.mono (V + d') V (by linarith [(sgn m0.le h).2 hd])
      rw [eV] at up; linarith
    · refine le_trans (M.mono (V + d') (V + d) ?_) hc
      unfold limitDivR at h
      split at h
      · next hcut =>
        obtain ⟨-, rfl⟩ := pyDivR_eq_ok.mp h
        rw [abs_of_pos hd] at hcut ⊢
        have gap := G.gap (fp.rnd 0.2 * V) d m0 (by rw [ed]; exact hcut)
        rw [ed] at gap
        have a := rnd_le H (mul_nonneg m0.le hd.le)
        have : fp.rnd (fp.rnd (fp.rnd 0.2 * V) * d) / d ≤ d := by
          rw [div_le_iff₀ hd]
          refine a.trans ?_
          have : (1 + u) * fp.rnd (fp.rnd 0.2 * V) ≤ (1 + u) * ((1 - u) * d) := by gcongr
          nlinarith [mul_nonneg h0 h0, mul_nonneg (mul_nonneg h0 h0) hd.le]
        have := M.mono _ _ this
        rw [ed] at this
        linarith
      · cases h; exact le_rfl

end Arith

/-- Setting a positive temperature and density, and equilibrating at constant temperature and volume, keep both. -/
structure LawfulPosTV (ct : Cantera) : Prop where
  setTD : ∀ g T ρ g', 0 < T → 0 < ρ → ct.setTD g T ρ = .ok g' → ct.T g' = T ∧ ct.density g' = ρ
  equilibrate : ∀ g g', ct.equilibrate g "TV" = .ok g' → ct.T g' = ct.T g ∧ ct.density g' = ct.density g

theorem LawfulPosTV.equilibrium (hl : LawfulPosTV ct) {g g' : ct.Gas} {ρ T : ℝ} (hT : 0 < T) (hρ : 0 < ρ)
    (h : SD.equilibrium ct g ρ T = .ok g') : ct.T g' = T ∧ ct.density g' = ρ := by
  simp only [SD.equilibrium, bind_eq_ok] at h
  obtain ⟨g1, h1, h2⟩ := h
  obtain ⟨a, b⟩ := hl.setTD _ _ _ _ hT hρ h1
  obtain ⟨c, d⟩ := hl.equilibrate _ _ h2
  exact ⟨by rw [c, a], by rw [d, b]⟩

theorem LawfulTV.pos (h : LawfulTV ct) : LawfulPosTV ct := ⟨fun g T ρ g' _ _ => h.setTD g T ρ g', h.equilibrate⟩

/-! ### `cj_state` -/

section CJ

variable {working initial : ct.Gas} {tolT tolV ratio : ℝ} {maxIter : ℤ} {fuel : ℕ} {out : CJOut ct} {u : ℝ} {κ : ℕ}

/-- `s` is the `n`-th iterate of `cj_state` as rounded, started from gas `g` at 2000 K and 2000 m/s. -/
abbrev CJIterateR (fp : FP) (ct : Cantera) (initial : ct.Gas) (density tolT tolV : ℝ) (g : ct.Gas) : ℕ → CJ ct → Prop :=
  Reached (cjBodyR fp ct initial density) (CJ.unconvergedR fp tolT tolV) ⟨g, 2000, 2000, 1000, 1000, 0⟩

/-- What a run of `cj_state` consisted of. -/
theorem cjStateR_ok (hm : 1 ≤ maxIter)
    (h : cjStateR fp ct working initial tolT tolV ratio maxIter fuel = some (.ok out)) :
    ∃ density g n s, guessDensityR fp ct initial ratio = .ok density ∧ equilibrium ct working density 2000 = .ok g ∧
      CJIterateR fp ct initial density tolT tolV g n s ∧ (n : ℤ) < maxIter ∧ out.gas = s.gas ∧ out.velocity = s.v ∧
      (out.warned = false → ¬ s.unconvergedR fp tolT tolV) := by
  unfold cjStateR at h
  split at h
  · cases h
  · next hs =>
    simp only [bind_eq_ok] at hs
    obtain ⟨density, hd, g, hg, hs⟩ := hs
    cases hs
    rw [cjLoopR_eq] at h
    obtain ⟨n, s, hr, hn, hc⟩ := iterLoop_count
      (fun s s' h => (cjBodyR_ok h).choose_spec.choose_spec.2.2.2.2) (by push_cast; omega) h
    refine ⟨_, g, n, s, hd, hg, hr, by simpa using hn, ?_⟩
    rcases hc with ⟨rfl, -⟩ | ⟨rfl, hu⟩
    · exact ⟨rfl, rfl, fun h => by cases h⟩
    · exact ⟨rfl, rfl, fun _ => hu⟩

/-- C124: the result of `cj_state` is that of at most `max_iterations - 1` updates, in any arithmetic; a warning says that
all of them were done and the tolerances still not met, no warning that they were met. -/
theorem C124_cj_updates (hm : 1 ≤ maxIter)
    (h : cjStateR fp ct working initial tolT tolV ratio maxIter fuel = some (.ok out)) :
    ∃ density g n s, guessDensityR fp ct initial ratio = .ok density ∧ equilibrium ct working density 2000 = .ok g ∧
      CJIterateR fp ct initial density tolT tolV g n s ∧ out.gas = s.gas ∧ out.velocity = s.v ∧
      (n : ℤ) ≤ maxIter - 1 ∧ (out.warned = true → (n : ℤ) = maxIter - 1) ∧
      (out.warned = true ↔ |s.dT| > fp.rnd (tolT * s.T) ∨ |s.dv| > fp.rnd (tolV * s.v)) := by
  unfold cjStateR at h
  split at h
  · cases h
  · next hs =>
    simp only [bind_eq_ok] at hs
    obtain ⟨density, hd, g, hg, hs⟩ := hs
    cases hs
    rw [cjLoopR_eq] at h
    obtain ⟨n, s, hr, hn, hc⟩ := iterLoop_count
      (fun s s' h => (cjBodyR_ok h).choose_spec.choose_spec.2.2.2.2) (by push_cast; omega) h
    push_cast at hn hc
    rcases hc with ⟨rfl, hu, hk⟩ | ⟨rfl, hu⟩
    · exact ⟨_, g, n, s, hd, hg, hr, rfl, rfl, by omega, fun _ => by omega, ⟨fun _ => hu, fun _ => rfl⟩⟩
    · exact ⟨_, g, n, s, hd, hg, hr, rfl, rfl, by omega, (fun h => by cases h), ⟨(fun h => by cases h), fun h => absurd h hu⟩⟩

theorem cjStateR_error {e : PyErr}
    (h : cjStateR fp ct working initial tolT tolV ratio maxIter fuel = some (.error e)) :
    guessDensityR fp ct initial ratio = .error e ∨ ∃ density, guessDensityR fp ct initial ratio = .ok density ∧
      (equilibrium ct working density 2000 = .error e ∨ ∃ g n s, CJIterateR fp ct initial density tolT tolV g n s ∧
        cjBodyR fp ct initial density s = .error e) := by
  unfold cjStateR at h
  split at h
  · next e' hs =>
    cases h
    simp only [bind_error] at hs
    rcases hs with hs | ⟨d, hd, hs | ⟨g, -, hs⟩⟩
    · exact .inl hs
    · exact .inr ⟨d, hd, .inl hs⟩
    · cases hs
  · next hs =>
    simp only [bind_eq_ok] at hs
    obtain ⟨density, hd, g, hg, hs⟩ := hs
    cases hs
    rw [cjLoopR_eq] at h
    obtain ⟨n, s, hr, -, hb⟩ := iterLoop_error h
    exact .inr ⟨_, hd, .inr ⟨g, n, s, hr, hb⟩⟩

variable (H : fp.Accurate u κ) (hu : u ≤ 1 / 1000)
include H

theorem guessDensityR_near {density : ℝ} (h : guessDensityR fp ct initial ratio = .ok density) :
    Near u 3 (ct.density initial * ratio) density := by
  have h0 := H.nonneg; have h1 := H.lt_one
  simp only [guessDensityR, bind_eq_ok, pyInvR_eq_ok, pyDivR_eq_ok] at h
  obtain ⟨_, ⟨a, rfl⟩, _, ⟨b, rfl⟩, -, rfl⟩ := h
  have n1 := H.round (Near.refl u (1 / ct.density initial))
  have n2 := H.round (Near.div h0 h1 n1 (Near.refl u ratio))
  have n3 := H.round (Near.div h0 h1 (Near.refl u 1) n2)
  have e : 1 / (1 / ct.density initial / ratio) = ct.density initial * ratio := by field_simp
  rw [e] at n3
  exact n3

include hu

theorem cjBodyR_temperature {density : ℝ} {s s' : CJ ct} (hT : 0 < s.T)
    (h : cjBodyR fp ct initial density s = .ok s') : 0 < s'.T ∧ |s'.T - s.T| ≤ (0.2 + 3 * u) * s.T := by
  obtain ⟨d, g, hl, eT, -⟩ := cjBodyR_ok h
  obtain ⟨m0, m1⟩ := fifth_le H hu hT
  rw [eT]
  exact step_bounds H hu hT ((limitMulR_le H m0.le hl).trans m1)

/-- C124: every guess temperature of `cj_state` is positive. -/
theorem C124_cj_temperature_positive {density : ℝ} {g : ct.Gas} {n : ℕ} {s : CJ ct}
    (h : CJIterateR fp ct initial density tolT tolV g n s) : 0 < s.T :=
  h.inv (I := fun s => 0 < s.T) (by norm_num) fun _ _ hs hb => (cjBodyR_temperature H hu hs hb).1

/-- C124: and differs from the one before by at most 20 %, up to three roundings. -/
theorem C124_cj_temperature_step {density : ℝ} {g : ct.Gas} {n : ℕ} {s s' : CJ ct}
    (h : CJIterateR fp ct initial density tolT tolV g n s) (hb : cjBodyR fp ct initial density s = .ok s') :
    |s'.T - s.T| ≤ (0.2 + 3 * u) * s.T :=
  (cjBodyR_temperature H hu (C124_cj_temperature_positive H hu h) hb).2

/-- C124: the returned gas has positive temperature, and initial density x density ratio up to `4 u`, if Cantera keeps the
temperature and density it is given. -/
theorem C124_cj_returned_gas (hl : LawfulPosTV ct) (hm : 1 ≤ maxIter) (hρ : 0 < ct.density initial) (hr : 0 < ratio)
    (h : cjStateR fp ct working initial tolT tolV ratio maxIter fuel = some (.ok out)) :
    0 < ct.T out.gas ∧ |ct.density out.gas - ct.density initial * ratio| ≤ 4 * u * (ct.density initial * ratio) := by
  have h0 := H.nonneg; have h1 := H.lt_one
  obtain ⟨density, g, n, s, hd, hg, hi, -, eg, -⟩ := cjStateR_ok hm h
  have hT := C124_cj_temperature_positive H hu hi
  have key : ct.T s.gas = s.T ∧ ct.density s.gas = density := by
    have d0 := Near.pos h0 h1 (mul_pos hρ hr) (guessDensityR_near H hd)
    cases hi with
    | start => exact hl.equilibrium (by norm_num) d0 hg
    | step _ _ hb =>
      obtain ⟨_, _, -, -, -, hgas, -⟩ := cjBodyR_ok hb
      exact hl.equilibrium hT d0 hgas
  rw [eg, key.1, key.2]
  refine ⟨hT, ?_⟩
  have b := Near.bound h0 h1 (n := 3) (by push_cast; linarith) (guessDensityR_near H hd)
  rw [abs_of_pos (mul_pos hρ hr)] at b
  refine b.trans (mul_le_mul_of_nonneg_right ?_ (mul_pos hρ hr).le)
  push_cast
  rw [div_le_iff₀ (by linarith)]
  nlinarith

/-- C124: without a warning, the last change of temperature and of speed was within the tolerances, up to rounding. -/
theorem C124_cj_last_change (hm : 1 ≤ maxIter) (ht : tolT ≤ 0.4)
    (h : cjStateR fp ct working initial tolT tolV ratio maxIter fuel = some (.ok out)) (hw : out.warned = false) :
    ∃ density prev s, cjBodyR fp ct initial density prev = .ok s ∧ out.gas = s.gas ∧ out.velocity = s.v ∧
      |s.T - prev.T| ≤ ((1 + u) * |tolT| + u / (1 - u)) * |s.T| ∧
      |s.v - prev.v| ≤ ((1 + u) * |tolV| + u / (1 - u)) * |s.v| := by
  have h0 := H.nonneg; have h1 := H.lt_one
  obtain ⟨density, g, n, s, hd, hg, hi, -, eg, ev, hc⟩ := cjStateR_ok hm h
  have hc := hc hw
  simp only [CJ.unconvergedR, not_or, not_lt, gt_iff_lt] at hc
  cases hi with
  | start =>
    exfalso
    have c := hc.1
    simp only at c
    have a : fp.rnd (tolT * 2000) ≤ (1 + u) * (0.4 * 2000) := by
      have b := (abs_le.mp (H.rnd (tolT * 2000))).2
      rcases le_or_gt 0 tolT with t | t
      · rw [abs_of_nonneg (mul_nonneg t (by norm_num))] at b
        nlinarith
      · rw [abs_of_neg (mul_neg_of_neg_of_pos t (by norm_num))] at b
        nlinarith
    norm_num at c a
    linarith
  | step _ _ hb =>
    obtain ⟨_, _, -, eT, eV, -, -⟩ := cjBodyR_ok hb
    exact ⟨_, _, s, hb, eg, ev, change_le H eT hc.1, change_le H eV hc.2⟩

omit hu H in
theorem pyDivR_only_zeroDivision {a b : ℝ} {e : PyErr} (h : pyDivR fp a b = .error e) : e = .zeroDivision := by
  simp only [pyDivR, bind_error] at h
  rcases h with h | ⟨_, -, h⟩
  · exact pyDiv_only_zeroDivision h
  · cases h

omit hu H in
theorem pyInvR_only_zeroDivision {a : ℝ} {e : PyErr} (h : pyInvR fp a = .error e) : e = .zeroDivision := by
  simp only [pyInvR, bind_error] at h
  rcases h with h | ⟨_, -, h⟩
  · exact pyInv_only_zeroDivision h
  · cases h

omit hu H in
theorem errEquilibriumR_only_zeroDivision {g : ct.Gas} {v : ℝ} {e : PyErr}
    (h : errEquilibriumR fp ct g initial v = .error e) : e = .zeroDivision := by
  simp only [errEquilibriumR, bind_error] at h
  rcases h with h | ⟨_, -, h⟩
  · exact pyDivR_only_zeroDivision h
  · cases h

omit hu H in
theorem errReflectedR_only_zeroDivision {g post : ct.Gas} {v : ℝ} {e : PyErr}
    (h : errReflectedR fp ct v g post = .error e) : e = .zeroDivision := by
  simp only [errReflectedR, bind_error] at h
  rcases h with h | ⟨_, -, h | ⟨_, -, h | ⟨_, -, h⟩⟩⟩
  · exact pyDivR_only_zeroDivision h
  · exact pyDivR_only_zeroDivision h
  · exact pyDivR_only_zeroDivision h
  · cases h

omit hu H in
theorem newtonR_only_zeroDivision {a b c d x y : ℝ} {e : PyErr} (h : newtonR fp a b c d x y = .error e) :
    e = .zeroDivision := by
  simp only [newtonR, bind_error] at h
  rcases h with h | ⟨_, -, h | ⟨_, -, h⟩⟩
  · exact pyDivR_only_zeroDivision h
  · exact pyDivR_only_zeroDivision h
  · cases h

omit hu H in
theorem limitMulR_only_zeroDivision {a b : ℝ} {e : PyErr} (h : limitMulR fp a b = .error e) : e = .zeroDivision := by
  unfold limitMulR at h
  split at h
  · simp only [bind_error] at h
    rcases h with h | ⟨_, -, h⟩
    · exact pyDivR_only_zeroDivision h
    · cases h
  · cases h

omit hu H in
theorem limitDivR_only_zeroDivision {a b : ℝ} {e : PyErr} (h : limitDivR fp a b = .error e) : e = .zeroDivision := by
  unfold limitDivR at h
  split at h
  · exact pyDivR_only_zeroDivision h
  · cases h

omit hu in
/-- `rnd (0.02 * x)`, added to `x`. -/
theorem bump_pos {x : ℝ} (hx : 0 < x) : 0 < fp.rnd (x + fp.rnd (fp.rnd 0.02 * x)) :=
  rnd_pos H (add_pos hx (rnd_pos H (mul_pos (rnd_pos H (by norm_num)) hx)))

/-- C124: Cantera is only asked for states of positive temperature and density: if it can equilibrate those, only a
division by zero can come out of `cj_state`. -/
theorem C124_cj_only_positive_states (hc : ∀ g T ρ, 0 < T → 0 < ρ → ∃ g', equilibrium ct g ρ T = .ok g')
    (h1 : 0 < ct.density initial) (h2 : 0 < ratio) {e : PyErr}
    (h : cjStateR fp ct working initial tolT tolV ratio maxIter fuel = some (.error e)) : e = .zeroDivision := by
  have eq : ∀ {g : ct.Gas} {ρ T : ℝ}, 0 < T → 0 < ρ → equilibrium ct g ρ T ≠ .error e := fun hT hρ he => by
    obtain ⟨g', hg'⟩ := hc _ _ _ hT hρ
    rw [hg'] at he; cases he
  rcases cjStateR_error h with h | ⟨density, hd, h⟩
  · simp only [guessDensityR, bind_error] at h
    rcases h with h | ⟨_, -, h | ⟨_, -, h⟩⟩
    · exact pyInvR_only_zeroDivision h
    · exact pyDivR_only_zeroDivision h
    · exact pyInvR_only_zeroDivision h
  have ρ0 : 0 < density := Near.pos H.nonneg H.lt_one (mul_pos h1 h2) (guessDensityR_near H hd)
  rcases h with h | ⟨g, n, s, hi, h⟩
  · exact absurd h (eq (by norm_num) ρ0)
  have hT := C124_cj_temperature_positive H hu hi
  simp only [cjBodyR, bind_error] at h
  rcases h with h | ⟨e0, -, h | ⟨gT, -, h | ⟨eT, -, h | ⟨hT', -, h | ⟨pT, -, h | ⟨gv, -, h | ⟨ev, -, h | ⟨hv, -,
    h | ⟨pv, -, h | ⟨d, -, h | ⟨dT, hdT, h | ⟨g, -, h⟩⟩⟩⟩⟩⟩⟩⟩⟩⟩⟩⟩
  · exact errEquilibriumR_only_zeroDivision h
  · exact absurd h (eq (bump_pos H hT) ρ0)
  · exact errEquilibriumR_only_zeroDivision h
  · exact pyDivR_only_zeroDivision h
  · exact pyDivR_only_zeroDivision h
  · exact absurd h (eq hT ρ0)
  · exact errEquilibriumR_only_zeroDivision h
  · exact pyDivR_only_zeroDivision h
  · exact pyDivR_only_zeroDivision h
  · exact newtonR_only_zeroDivision h
  · exact limitMulR_only_zeroDivision h
  · obtain ⟨m0, m1⟩ := fifth_le H hu hT
    exact absurd h (eq (step_bounds H hu hT ((limitMulR_le H m0.le hdT).trans m1)).1 ρ0)
  · cases h

end CJ

/-! ### `get_eq_state` -/

section RS

variable {working post : ct.Gas} {w tolT tolV : ℝ} {maxIter : ℤ} {fuel : ℕ} {out : RSOut ct} {u : ℝ} {κ : ℕ}

/-- `(ρ, s)`: the `n`-th guess density and iterate of `get_eq_state` as rounded, started from the state of `working` (`g`
after equilibration). -/
abbrev RSIterateR (fp : FP) (ct : Cantera) (w : ℝ) (post working : ct.Gas) (tolT tolV : ℝ) (g : ct.Gas) :
    ℕ → ℝ × RS ct → Prop :=
  Reached (fun x : ℝ × RS ct => rsBodyR fp ct w post (fp.rnd (1 / ct.density post)) x.1 x.2)
    (fun x => x.2.unconvergedR fp tolT tolV)
    (ct.density working, ⟨g, ct.T working, fp.rnd (1 / ct.density working), 1000, 1000, 0⟩)

theorem getEqStateR_ok (hm : 1 ≤ maxIter)
    (h : getEqStateR fp ct w post working tolT tolV maxIter fuel = some (.ok out)) :
    ∃ g n x, equilibrium ct working (ct.density working) (ct.T working) = .ok g ∧
      RSIterateR fp ct w post working tolT tolV g n x ∧ (n : ℤ) < maxIter ∧ out.gas = x.2.gas ∧
      (out.warned = false → ¬ x.2.unconvergedR fp tolT tolV) := by
  unfold getEqStateR at h
  split at h
  · cases h
  · next hs =>
    simp only [bind_eq_ok, pyInvR_eq_ok] at hs
    obtain ⟨_, ⟨-, rfl⟩, _, ⟨-, rfl⟩, g, hg, hs⟩ := hs
    cases hs
    rw [rsLoopR_eq] at h
    obtain ⟨n, s, hr, hn, hc⟩ := iterLoop_count
      (fun s s' h => (rsBodyR_ok h).choose_spec.choose_spec.choose_spec.2.2.2.2.2.2.2) (by push_cast; omega) h
    refine ⟨g, n, s, hg, hr, by simpa using hn, ?_⟩
    rcases hc with ⟨rfl, -⟩ | ⟨rfl, hu⟩
    · exact ⟨rfl, fun h => by cases h⟩
    · exact ⟨rfl, fun _ => hu⟩

/-- C124: the result of `get_eq_state` is that of at most `max_iterations - 1` updates, in any arithmetic; a warning says
that all of them were done and the tolerances still not met, no warning that they were met. -/
theorem C124_reflected_updates (hm : 1 ≤ maxIter)
    (h : getEqStateR fp ct w post working tolT tolV maxIter fuel = some (.ok out)) :
    ∃ g n x, equilibrium ct working (ct.density working) (ct.T working) = .ok g ∧
      RSIterateR fp ct w post working tolT tolV g n x ∧ out.gas = x.2.gas ∧
      (n : ℤ) ≤ maxIter - 1 ∧ (out.warned = true → (n : ℤ) = maxIter - 1) ∧
      (out.warned = true ↔ |x.2.dT| > fp.rnd (tolT * x.2.T) ∨ |x.2.dV| > fp.rnd (tolV * x.2.V)) := by
  unfold getEqStateR at h
  split at h
  · cases h
  · next hs =>
    simp only [bind_eq_ok, pyInvR_eq_ok] at hs
    obtain ⟨_, ⟨-, rfl⟩, _, ⟨-, rfl⟩, g, hg, hs⟩ := hs
    cases hs
    rw [rsLoopR_eq] at h
    obtain ⟨n, s, hr, hn, hc⟩ := iterLoop_count
      (fun s s' h => (rsBodyR_ok h).choose_spec.choose_spec.choose_spec.2.2.2.2.2.2.2) (by push_cast; omega) h
    push_cast at hn hc
    rcases hc with ⟨rfl, hu, hk⟩ | ⟨rfl, hu⟩
    · exact ⟨g, n, s, hg, hr, rfl, by omega, fun _ => by omega, ⟨fun _ => hu, fun _ => rfl⟩⟩
    · exact ⟨g, n, s, hg, hr, rfl, by omega, (fun h => by cases h), ⟨(fun h => by cases h), fun h => absurd h hu⟩⟩

theorem getEqStateR_error {e : PyErr}
    (h : getEqStateR fp ct w post working tolT tolV maxIter fuel = some (.error e)) :
    e = .zeroDivision ∨ equilibrium ct working (ct.density working) (ct.T working) = .error e ∨
      ∃ g n x, RSIterateR fp ct w post working tolT tolV g n x ∧
        rsBodyR fp ct w post (fp.rnd (1 / ct.density post)) x.1 x.2 = .error e := by
  unfold getEqStateR at h
  split at h
  · next e' hs =>
    cases h
    simp only [bind_error] at hs
    rcases hs with hs | ⟨_, -, hs | ⟨_, -, hs | ⟨_, -, hs⟩⟩⟩
    · exact .inl (pyInvR_only_zeroDivision hs)
    · exact .inl (pyInvR_only_zeroDivision hs)
    · exact .inr (.inl hs)
    · cases hs
  · next hs =>
    simp only [bind_eq_ok, pyInvR_eq_ok] at hs
    obtain ⟨_, ⟨-, rfl⟩, _, ⟨-, rfl⟩, g, hg, hs⟩ := hs
    cases hs
    rw [rsLoopR_eq] at h
    obtain ⟨n, s, hr, -, hb⟩ := iterLoop_error h
    exact .inr (.inr ⟨g, n, s, hr, hb⟩)

variable (H : fp.Accurate u κ) (hu : u ≤ 1 / 1000) (M : fp.Monotone) (G : fp.Grid u)
include H hu M G

theorem rsBodyR_step {ρ ρ' : ℝ} {s s' : RS ct} (hT : 0 < s.T) (hV : 0 < s.V)
    (hle : s.V ≤ fp.rnd (1 / ct.density post)) (eV : fp.rnd s.V = s.V)
    (h : rsBodyR fp ct w post (fp.rnd (1 / ct.density post)) ρ s = .ok (ρ', s')) :
    0 < s'.T ∧ |s'.T - s.T| ≤ (0.2 + 3 * u) * s.T ∧ (0.8 - 3 * u) * s.V ≤ s'.V ∧
      s'.V ≤ fp.rnd (1 / ct.density post) ∧ fp.rnd s'.V = s'.V := by
  obtain ⟨d, dV, g, hl, hlV, eT, eV', -⟩ := rsBodyR_ok h
  obtain ⟨m0, m1⟩ := fifth_le H hu hT
  obtain ⟨t1, t2⟩ := step_bounds H hu hT ((limitDivR_le H m0.le hl).trans m1)
  obtain ⟨v1, v2⟩ := volume_step_rounded H hu M G hV hle eV (G.idem _) hlV
  rw [eT, eV']
  exact ⟨t1, t2, v1, v2, G.idem _⟩

theorem rsInv (hT : 0 < ct.T working) (h2 : 0 < ct.density post) (h3 : ct.density post ≤ ct.density working)
    {g : ct.Gas} {n : ℕ} {x : ℝ × RS ct} (h : RSIterateR fp ct w post working tolT tolV g n x) :
    (0 < x.2.T ∧ 0 < x.2.V ∧ x.2.V ≤ fp.rnd (1 / ct.density post) ∧ fp.rnd x.2.V = x.2.V) ∧
      0 < x.1 ∧ (1 - 2 * u) * ct.density post ≤ x.1 := by
  have h0 := H.nonneg; have h1 := H.lt_one
  have hw : 0 < ct.density working := by linarith
  refine h.inv (I := fun x => (0 < x.2.T ∧ 0 < x.2.V ∧ x.2.V ≤ fp.rnd (1 / ct.density post) ∧ fp.rnd x.2.V = x.2.V) ∧
      0 < x.1 ∧ (1 - 2 * u) * ct.density post ≤ x.1) ?_ ?_
  · exact ⟨⟨hT, rnd_pos H (by positivity), M.mono _ _ (one_div_le_one_div_of_le h2 h3), G.idem _⟩, hw, by nlinarith⟩
  · rintro ⟨ρ, s⟩ ⟨ρ', s'⟩ ⟨⟨a, b, c, d⟩, -⟩ hb
    obtain ⟨t1, -, v1, v2, v3⟩ := rsBodyR_step H hu M G a b c d hb
    have v0 : 0 < s'.V := lt_of_lt_of_le (mul_pos (by linarith) b) v1
    obtain ⟨_, _, _, -, -, -, -, -, eρ, -⟩ := rsBodyR_ok hb
    refine ⟨⟨t1, v0, v2, v3⟩, ?_⟩
    show 0 < ρ' ∧ (1 - 2 * u) * ct.density post ≤ ρ'
    rw [eρ]
    refine ⟨rnd_pos H (by positivity), le_trans ?_ (le_rnd H (by positivity))⟩
    have p := v2.trans (rnd_le H (show 0 ≤ 1 / ct.density post by positivity))
    rw [mul_one_div, le_div_iff₀ v0]
    rw [mul_one_div, le_div_iff₀ h2] at p
    have : (1 - 2 * u) * (ct.density post * s'.V) ≤ (1 - 2 * u) * (1 + u) :=
      mul_le_mul_of_nonneg_left (by linarith) (by linarith)
    nlinarith [mul_nonneg h0 h0]

/-- C124: in every iterate of `get_eq_state` the guess temperature and the guess volume are positive, and the volume does not
exceed the (rounded) post-shock volume, not even in the last bit; the density handed to Cantera is at least the post-shock
density up to two roundings. -/
theorem C124_reflected_bracket (hT : 0 < ct.T working) (h2 : 0 < ct.density post)
    (h3 : ct.density post ≤ ct.density working) {g : ct.Gas} {n : ℕ} {ρ : ℝ} {s : RS ct}
    (h : RSIterateR fp ct w post working tolT tolV g n (ρ, s)) :
    0 < s.T ∧ 0 < s.V ∧ s.V ≤ fp.rnd (1 / ct.density post) ∧ (1 - 2 * u) * ct.density post ≤ ρ := by
  obtain ⟨⟨a, b, c, -⟩, -, d⟩ := rsInv H hu M G hT h2 h3 h
  exact ⟨a, b, c, d⟩

/-- C124: one update changes the temperature by at most 20 %, and lowers the volume by at most 20 %, up to three
roundings. -/
theorem C124_reflected_step (hT : 0 < ct.T working) (h2 : 0 < ct.density post)
    (h3 : ct.density post ≤ ct.density working) {g : ct.Gas} {n : ℕ} {ρ ρ' : ℝ} {s s' : RS ct}
    (h : RSIterateR fp ct w post working tolT tolV g n (ρ, s))
    (hb : rsBodyR fp ct w post (fp.rnd (1 / ct.density post)) ρ s = .ok (ρ', s')) :
    |s'.T - s.T| ≤ (0.2 + 3 * u) * s.T ∧ (0.8 - 3 * u) * s.V ≤ s'.V := by
  obtain ⟨⟨a, b, c, d⟩, -⟩ := rsInv H hu M G hT h2 h3 h
  obtain ⟨-, t, v, -⟩ := rsBodyR_step H hu M G a b c d hb
  exact ⟨t, v⟩

/-- C124: the returned gas has positive temperature and is at least as dense as the post-shock gas, up to two roundings, if
Cantera keeps the temperature and density it is given. -/
theorem C124_reflected_returned_gas (hl : LawfulPosTV ct) (hm : 1 ≤ maxIter) (hT : 0 < ct.T working)
    (h2 : 0 < ct.density post) (h3 : ct.density post ≤ ct.density working)
    (h : getEqStateR fp ct w post working tolT tolV maxIter fuel = some (.ok out)) :
    0 < ct.T out.gas ∧ (1 - 2 * u) * ct.density post ≤ ct.density out.gas := by
  obtain ⟨g, n, x, hg, hi, -, eg, -⟩ := getEqStateR_ok hm h
  obtain ⟨⟨a, -⟩, c, d⟩ := rsInv H hu M G hT h2 h3 hi
  have key : ct.T x.2.gas = x.2.T ∧ ct.density x.2.gas = x.1 := by
    cases hi with
    | start => exact hl.equilibrium hT c hg
    | step _ _ hb =>
      obtain ⟨_, _, _, -, -, -, -, -, -, hgas, -⟩ := rsBodyR_ok hb
      exact hl.equilibrium a c hgas
  rw [eg, key.1, key.2]
  exact ⟨a, d⟩

/-- C124: Cantera is only asked for states of positive temperature and density: if it can equilibrate those, only a
division by zero can come out of `get_eq_state`. -/
theorem C124_reflected_only_positive_states (hc : ∀ g T ρ, 0 < T → 0 < ρ → ∃ g', equilibrium ct g ρ T = .ok g')
    (hT : 0 < ct.T working) (h2 : 0 < ct.density post) (h3 : ct.density post ≤ ct.density working) {e : PyErr}
    (h : getEqStateR fp ct w post working tolT tolV maxIter fuel = some (.error e)) : e = .zeroDivision := by
  have eq : ∀ {g : ct.Gas} {ρ T : ℝ}, 0 < T → 0 < ρ → equilibrium ct g ρ T ≠ .error e := fun hT hρ he => by
    obtain ⟨g', hg'⟩ := hc _ _ _ hT hρ
    rw [hg'] at he; cases he
  rcases getEqStateR_error h with h | h | ⟨g, n, ⟨ρ, s⟩, hi, h⟩
  · exact h
  · exact absurd h (eq hT (by linarith))
  obtain ⟨⟨a, b, c, d⟩, ρ0, -⟩ := rsInv H hu M G hT h2 h3 hi
  simp only at a b c d ρ0 h
  have bump : 0 < fp.rnd (s.T + fp.rnd (s.T * fp.rnd 0.02)) := by
    have := bump_pos H a
    rwa [mul_comm (fp.rnd 0.02)] at this
  simp only [rsBodyR, bind_error] at h
  rcases h with h | ⟨e0, -, h | ⟨gT, -, h | ⟨eT, -, h | ⟨hT', -, h | ⟨pT, -, h | ⟨dens, hdens, h | ⟨gv, -, h | ⟨ev, -, h |
    ⟨hv, -, h | ⟨pv, -, h | ⟨dd, hn, h | ⟨dT, hdT, h | ⟨dV, hdV, h | ⟨dens', hdens', h | ⟨g, -, h⟩⟩⟩⟩⟩⟩⟩⟩⟩⟩⟩⟩⟩⟩⟩
  · exact errReflectedR_only_zeroDivision h
  · exact absurd h (eq bump ρ0)
  · exact errReflectedR_only_zeroDivision h
  · exact pyDivR_only_zeroDivision h
  · exact pyDivR_only_zeroDivision h
  · exact pyInvR_only_zeroDivision h
  · obtain ⟨-, rfl⟩ := pyInvR_eq_ok.mp hdens
    exact absurd h (eq a (rnd_pos H (one_div_pos.mpr (bump_pos H b))))
  · exact errReflectedR_only_zeroDivision h
  · exact pyDivR_only_zeroDivision h
  · exact pyDivR_only_zeroDivision h
  · exact newtonR_only_zeroDivision h
  · exact limitDivR_only_zeroDivision h
  · exact limitDivR_only_zeroDivision h
  · exact pyInvR_only_zeroDivision h
  · obtain ⟨m0, m1⟩ := fifth_le H hu a
    obtain ⟨-, rfl⟩ := pyInvR_eq_ok.mp hdens'
    simp only [newtonR, bind_eq_ok, pyDivR_eq_ok] at hn
    obtain ⟨_, -, _, ⟨-, rfl⟩, hn⟩ := hn
    cases hn
    have v := (volume_step_rounded H hu M G b c d (G.idem _) hdV).1
    exact absurd h (eq (step_bounds H hu a ((limitDivR_le H m0.le hdT).trans m1)).1
      (rnd_pos H (one_div_pos.mpr (lt_of_lt_of_le (mul_pos (by linarith) b) v))))
  · cases h

omit hu M G in
/-- C124: without a warning after at least one update, the last change of temperature and of volume was within the
tolerances, up to rounding. -/
theorem C124_reflected_last_change (hm : 1 ≤ maxIter)
    (h : getEqStateR fp ct w post working tolT tolV maxIter fuel = some (.ok out)) (hw : out.warned = false) :
    (∃ g, equilibrium ct working (ct.density working) (ct.T working) = .ok g ∧ out.gas = g ∧
      1000 ≤ fp.rnd (tolT * ct.T working) ∧ 1000 ≤ fp.rnd (tolV * fp.rnd (1 / ct.density working))) ∨
    ∃ ρ ρ' prev s, rsBodyR fp ct w post (fp.rnd (1 / ct.density post)) ρ prev = .ok (ρ', s) ∧ out.gas = s.gas ∧
      |s.T - prev.T| ≤ ((1 + u) * |tolT| + u / (1 - u)) * |s.T| ∧
      |s.V - prev.V| ≤ ((1 + u) * |tolV| + u / (1 - u)) * |s.V| := by
  obtain ⟨g, n, x, hg, hi, -, eg, hc⟩ := getEqStateR_ok hm h
  have hc := hc hw
  simp only [RS.unconvergedR, not_or, not_lt, gt_iff_lt] at hc
  cases hi with
  | start =>
    obtain ⟨a, b⟩ := hc
    simp only [abs_of_pos (show (0 : ℝ) < 1000 by norm_num)] at a b
    exact .inl ⟨g, hg, eg, a, b⟩
  | step _ _ hb =>
    obtain ⟨_, _, _, -, -, eT, eV, -⟩ := rsBodyR_ok hb
    exact .inr ⟨_, _, _, _, hb, eg, change_le H eT hc.1, change_le H eV hc.2⟩

end RS

/-! ### the hypotheses are met -/

section Examples

/-- Double precision is an arithmetic of the kind supposed. -/
example : ∃ κ, FP.double.Accurate ((1 / 2) ^ 53) κ ∧ ((1 : ℝ) / 2) ^ 53 ≤ 1 / 1000 ∧ FP.double.Monotone ∧
    FP.double.Grid ((1 / 2) ^ 53) :=
  ⟨1, FP.double_accurate, by norm_num, FP.double_monotone, FP.double_grid⟩

/-- So is exact arithmetic, ... -/
theorem exact_arithmetic : FP.exact.Accurate 0 0 ∧ FP.exact.Monotone ∧ FP.exact.Grid 0 := by
  refine ⟨⟨le_rfl, one_pos, fun x => by simp [FP.exact], fun a b _ => Near.refl 0 _⟩,
    ⟨fun _ _ h => h, rfl, fun a b => (div_pos a.pos b.pos).le⟩, ⟨fun _ => rfl, fun x y _ h => ?_⟩⟩
  rw [sub_zero, one_mul]; exact h.le

/-- ... and there is a run that converges, with the gas of the example of `Props/Reflected.lean`, to which the theorems
apply. -/
example : ∃ out, getEqStateR FP.exact (tvGas exP exH) (8000 / 9) (tvMk exP exH 2100 1.8) (tvMk exP exH exTg 9)
    1e-4 1e-4 500 500 = some (.ok out) ∧ out.warned = false ∧
    0 < (tvGas exP exH).T out.gas ∧ (1 - 2 * 0) * 1.8 ≤ (tvGas exP exH).density out.gas := by
  have H := tvGas_isTV exP exH
  have h := ex_getEqState H
  unfold getEqStateDefault at h
  obtain ⟨A, M, G⟩ := exact_arithmetic
  cases e : getEqState (tvGas exP exH) (8000 / 9) (tvMk exP exH 2100 1.8) (tvMk exP exH exTg 9) 1e-4 1e-4 500 500 with
  | none => rw [e] at h; cases h
  | some r =>
    rw [e] at h
    simp only [Option.getD_some] at h
    have e' : getEqStateR FP.exact (tvGas exP exH) (8000 / 9) (tvMk exP exH 2100 1.8) (tvMk exP exH exTg 9)
        1e-4 1e-4 500 500 = some r := by rw [C124_exact_reflected, e]
    rw [h] at e'
    have := C124_reflected_returned_gas A (by norm_num) M G H.lawful.pos (by norm_num) (by rw [H.T]; linarith [exTg_gt])
      (by rw [H.density]; norm_num) (by rw [H.density, H.density]; norm_num) e'
    rw [H.density (T := 2100)] at this
    exact ⟨_, e', rfl, this⟩

/-- In double precision, whatever the gas answers (pressure `P`, enthalpy `h` at temperature and density): `cj_state` from
an initial gas of density 1.2 with density ratio 1.8 ends with a gas of positive temperature and density 2.16 to within
`4·2⁻⁵³`, or with a division by zero. -/
example (P h : ℝ → ℝ → ℝ) : (∃ out, cjStateR FP.double (tvGas P h) (tvMk P h 300 1.2) (tvMk P h 300 1.2) 1e-4 1e-4 1.8
      500 500 = some (.ok out) ∧ 0 < (tvGas P h).T out.gas ∧
      |(tvGas P h).density out.gas - 1.2 * 1.8| ≤ 4 * (1 / 2) ^ 53 * (1.2 * 1.8)) ∨
    cjStateR FP.double (tvGas P h) (tvMk P h 300 1.2) (tvMk P h 300 1.2) 1e-4 1e-4 1.8 500 500 =
      some (.error .zeroDivision) := by
  have H := tvGas_isTV P h
  obtain ⟨r, hr⟩ := C124_terminates_cj (fp := FP.double) (ct := tvGas P h) (working := tvMk P h 300 1.2)
    (initial := tvMk P h 300 1.2) (tolT := 1e-4) (tolV := 1e-4) (ratio := 1.8) (maxIter := 500) (fuel := 500)
    (by norm_num) (by norm_num)
  cases r with
  | error e =>
    have := C124_cj_only_positive_states FP.double_accurate (by norm_num) (fun g T ρ hT hρ => ⟨_, H.equilibrium _ _ _⟩)
      (by rw [H.density]; norm_num) (by norm_num) hr
    exact .inr (by rw [hr, this])
  | ok out =>
    have := C124_cj_returned_gas FP.double_accurate (by norm_num) H.lawful.pos (by norm_num)
      (by rw [H.density]; norm_num) (by norm_num) hr
    rw [H.density (T := 300)] at this
    exact .inl ⟨out, hr, this⟩

end Examples

end Pypbomb.SD
