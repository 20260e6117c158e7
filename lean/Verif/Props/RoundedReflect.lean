/-
Rounding in `Reflection.reflect` around the iteration (C125).
-/
import Verif.Props.RoundedSD
import Verif.Lemmas.Signed
import Verif.Props.ReflectedPerfect

namespace Pypbomb.SD

variable {ct : Cantera} {fp : FP}

/-- C125: with exact arithmetic the rounded `reflect` is `reflect`. -/
theorem C125_exact (initial post working : ct.Gas) (U : ℝ) :
    reflectR FP.exact ct initial post working U = reflect ct initial post working U := by
  have e1 : particleSpeedR FP.exact ct initial post = particleSpeed ct initial post := by
    simp only [particleSpeedR, particleSpeed, pyInvR_exact, exact_rnd]
    refine bind_congr fun _ => bind_congr fun _ => ?_
    generalize npSqrt _ = x
    cases x <;> rfl
  have e2 : reflectGuessR FP.exact ct post U = reflectGuess ct post U := by
    simp only [reflectGuessR, reflectGuess, pyInvR_exact, pyDivR_exact, exact_rnd]
  simp only [reflectR, reflect, e1, e2, getEqStateDefaultR, getEqStateDefault, C124_exact_reflected, pyDivR_exact, exact_rnd]

variable {u : ℝ} {κ : ℕ} {initial post working : ct.Gas} {U : ℝ}

/-- C125: the particle speed handed to the iteration is the exact one up to `2 A + 4` roundings, where `A` bounds
`(ρ₂ + ρ₁) / (ρ₂ - ρ₁)` (`A = 4` for every detonation with density ratio 5/3 or more). -/
theorem C125_particle_speed (H : fp.Accurate u κ) {A : ℕ} (h1 : 0 < ct.density initial)
    (h2 : ct.density initial < ct.density post) (hp : ct.P initial ≤ ct.P post)
    (hA : ct.density post + ct.density initial ≤ A * (ct.density post - ct.density initial))
    (hu : ((4 * A : ℕ) : ℝ) * u ≤ 1) :
    ∃ w, particleSpeedR fp ct initial post = .ok w ∧
      Near u (2 * A + 4) (Real.sqrt ((ct.P post - ct.P initial) * (1 / ct.density initial - 1 / ct.density post))) w := by
  have u0 := H.nonneg; have u1 := H.lt_one
  unfold particleSpeedR
  generalize ct.density initial = ρ1 at *
  generalize ct.density post = ρ2 at *
  have h3 : 0 < ρ2 := h1.trans h2
  have A1 : 1 ≤ A := by
    by_contra hn
    have : A = 0 := by omega
    rw [this] at hA; norm_num at hA; linarith
  have d0 : 1 / ρ2 < 1 / ρ1 := one_div_lt_one_div_of_lt h1 h2
  have hd : 1 / ρ1 + 1 / ρ2 ≤ A * (1 / ρ1 - 1 / ρ2) := by
    have e1 : 1 / ρ1 + 1 / ρ2 = (ρ2 + ρ1) / (ρ1 * ρ2) := by field_simp
    have e2 : (A : ℝ) * (1 / ρ1 - 1 / ρ2) = A * (ρ2 - ρ1) / (ρ1 * ρ2) := by field_simp
    rw [e1, e2]; gcongr
  have n1 := H.round (Near.refl u (1 / ρ1))
  have n2 := H.round (Near.refl u (1 / ρ2))
  have s : Signed u 1 (1 / ρ1) (1 / ρ2) (fp.rnd (1 / ρ1) - fp.rnd (1 / ρ2)) := ⟨_, _, n1, n2, rfl⟩
  have nd := H.round (s.resolve u0 u1 A1 (by positivity) d0 hd (by simpa using hu))
  have np := H.round (Near.refl u (ct.P post - ct.P initial))
  have nq := H.round (Near.mul u0 u1 np nd)
  have q0 : 0 ≤ (ct.P post - ct.P initial) * (1 / ρ1 - 1 / ρ2) := mul_nonneg (by linarith) (by linarith)
  have ns := Near.rpow u0 u1 (p := 1 / 2) (by norm_num) (by norm_num) q0 nq
  rw [← Real.sqrt_eq_rpow, ← Real.sqrt_eq_rpow] at ns
  have nw := H.round ns
  refine ⟨_, ?_, Near.mono u0 u1 (le_of_eq (by ring)) nw⟩
  rw [show pyInvR fp ρ1 = .ok (fp.rnd (1 / ρ1)) from pyInvR_eq_ok.mpr ⟨h1.ne', rfl⟩,
    show pyInvR fp ρ2 = .ok (fp.rnd (1 / ρ2)) from pyInvR_eq_ok.mpr ⟨h3.ne', rfl⟩, ok_bind, ok_bind,
    npSqrt_ok (Near.nonneg u0 u1 q0 nq), ok_bind]

/-- `1 - q` for `q` near 0.2. -/
theorem one_sub_near (u0 : 0 ≤ u) (hu : u ≤ 1 / 1000) {q : ℝ} (h : Near u 4 0.2 q) : Near u 2 0.8 (1 - q) := by
  have b := Near.bound u0 (by linarith) (n := 4) (by push_cast; linarith) h
  push_cast at b
  have c : 4 * u / (1 - 4 * u) ≤ 4.1 * u := by
    rw [div_le_iff₀ (by linarith)]; nlinarith
  have d : |q - 0.2| ≤ 0.82 * u := by
    refine b.trans ?_
    rw [abs_of_pos (by norm_num : (0 : ℝ) < 0.2)]
    nlinarith
  obtain ⟨l, r⟩ := abs_le.mp d
  refine ⟨(1 - q) / 0.8, ?_, ?_, by field_simp⟩
  · rw [le_div_iff₀ (by norm_num)]; nlinarith
  · rw [div_mul_eq_mul_div, div_le_iff₀ (by norm_num)]
    have : (1 - q) * (1 - u) ^ 2 ≤ (0.8 + 0.82 * u) * (1 - u) ^ 2 := by gcongr; linarith
    nlinarith [mul_nonneg u0 u0, mul_nonneg (mul_nonneg u0 u0) u0]

/-- C125: the guess state is the exact one, `P₂ + 0.8 ρ₂ U²` and `0.2 T₂ P / P₂`, up to 7 and 14 roundings; and the guess
temperature matches the guess pressure actually used up to 7. -/
theorem C125_guess (H : fp.Accurate u κ) (hu : u ≤ 1 / 1000) (h2 : 0 < ct.density post) (hT : 0 < ct.T post)
    (hP : 0 < ct.P post) :
    ∃ T P, reflectGuessR fp ct post U = .ok (T, P) ∧ Near u 7 (ct.P post + 0.8 * ct.density post * U ^ 2) P ∧
      Near u 14 (0.2 * ct.T post * (ct.P post + 0.8 * ct.density post * U ^ 2) / ct.P post) T ∧
      Near u 7 (0.2 * ct.T post * P / ct.P post) T ∧ 0 < P ∧ 0 < T := by
  have u0 := H.nonneg; have u1 := H.lt_one
  unfold reflectGuessR
  generalize ct.density post = ρ at *
  have n1 := H.round (Near.refl u (1 / ρ))
  have n2 := H.round (Near.div u0 u1 (H.round (Near.refl u (0.2 : ℝ))) (Near.refl u ρ))
  have p1 : 0 < fp.rnd (1 / ρ) := Near.pos u0 u1 (by positivity) n1
  have n3 := H.round (Near.div u0 u1 n2 n1)
  have e3 : (0.2 : ℝ) / ρ / (1 / ρ) = 0.2 := by field_simp
  rw [e3] at n3
  have n4 := H.round (one_sub_near u0 hu n3)
  have n5 := H.round (Near.mul u0 u1 (H.round (Near.mul u0 u1 (Near.refl u ρ) (H.round (Near.refl u (U ^ 2))))) n4)
  have n6 := H.round (Near.add u0 u1 hP.le (by positivity) (Near.refl u (ct.P post)) n5)
  set P := fp.rnd (ct.P post + fp.rnd (fp.rnd (ρ * fp.rnd (U ^ 2)) *
    fp.rnd (1 - fp.rnd (fp.rnd (fp.rnd 0.2 / ρ) / fp.rnd (1 / ρ))))) with hPdef
  have n7 : Near u 7 (ct.P post + 0.8 * ρ * U ^ 2) P := by
    have e : ct.P post + ρ * U ^ 2 * 0.8 = ct.P post + 0.8 * ρ * U ^ 2 := by ring
    rw [e] at n6
    exact n6
  have P0 : 0 < P := Near.pos u0 u1 (by positivity) n7
  have n8 := H.round (Near.mul u0 u1 (H.round (Near.refl u (ct.T post * P))) n2)
  have n9 := H.round (Near.mul u0 u1 (Near.refl u (ct.P post)) n1)
  have q9 := Near.pos u0 u1 (by positivity) n9
  have n10 := H.round (Near.div u0 u1 n8 n9)
  have e10 : ct.T post * P * (0.2 / ρ) / (ct.P post * (1 / ρ)) = 0.2 * ct.T post * P / ct.P post := by field_simp
  rw [e10] at n10
  refine ⟨_, P, ?_, n7, ?_, n10, P0, Near.pos u0 u1 (by positivity) n10⟩
  · rw [show pyInvR fp ρ = .ok (fp.rnd (1 / ρ)) from pyInvR_eq_ok.mpr ⟨h2.ne', rfl⟩, ok_bind,
      show pyDivR fp (fp.rnd 0.2) ρ = .ok (fp.rnd (fp.rnd 0.2 / ρ)) from pyDivR_eq_ok.mpr ⟨h2.ne', rfl⟩, ok_bind,
      show pyDivR fp (fp.rnd (fp.rnd 0.2 / ρ)) (fp.rnd (1 / ρ)) = .ok (fp.rnd (fp.rnd (fp.rnd 0.2 / ρ) / fp.rnd (1 / ρ)))
        from pyDivR_eq_ok.mpr ⟨p1.ne', rfl⟩, ok_bind]
    simp only [← hPdef]
    rw [pyDivR_eq_ok.mpr ⟨q9.ne', rfl⟩, ok_bind]
  · obtain ⟨θ, a, b, e⟩ := n7
    obtain ⟨φ, c, d, f⟩ := n10
    rw [f, e]
    have t := Near.mul u0 u1 (⟨θ, a, b, (one_mul θ).symm⟩ : Near u 7 1 θ) (⟨φ, c, d, (one_mul φ).symm⟩ : Near u 7 1 φ)
    obtain ⟨ψ, a', b', e'⟩ := t
    exact ⟨ψ, a', b', by rw [mul_one, one_mul] at e'; rw [← e']; ring⟩

/-- Setting temperature, pressure and composition keeps temperature and pressure; and with the composition of `post` the
density follows the ideal gas law from that of `post`, up to a relative error `ε`. -/
structure IdealTPX (ct : Cantera) (post : ct.Gas) (ε : ℝ) : Prop where
  T : ∀ g T P g', ct.setTPX g T P (ct.X post) = .ok g' → ct.T g' = T
  P : ∀ g T P g', ct.setTPX g T P (ct.X post) = .ok g' → ct.P g' = P
  law : ∀ g T P g', 0 < T → 0 < P → ct.setTPX g T P (ct.X post) = .ok g' →
    |ct.density g' * T * ct.P post - ct.density post * ct.T post * P| ≤ ε * (ct.density post * ct.T post * P)

/-- C125: the iteration starts from a state at least twice as dense as the post-shock gas. -/
theorem C125_start_denser (H : fp.Accurate u κ) (hu : u ≤ 1 / 1000) {ε : ℝ} (hε : ε ≤ 1 / 2) (hi : IdealTPX ct post ε)
    (h2 : 0 < ct.density post) (hT : 0 < ct.T post) (hP : 0 < ct.P post) {guess : ℝ × ℝ} {w : ct.Gas}
    (hg : reflectGuessR fp ct post U = .ok guess) (hw : ct.setTPX working guess.1 guess.2 (ct.X post) = .ok w) :
    0 < ct.T w ∧ 2 * ct.density post ≤ ct.density w := by
  have u0 := H.nonneg; have u1 := H.lt_one
  obtain ⟨T, P, e, -, -, n, P0, T0⟩ := C125_guess (U := U) H hu h2 hT hP
  rw [e] at hg; cases hg
  have l := (abs_le.mp (hi.law _ _ _ _ T0 P0 hw)).1
  refine ⟨by rw [hi.T _ _ _ _ hw]; exact T0, ?_⟩
  have b := Near.bound u0 u1 (n := 7) (by push_cast; linarith) n
  push_cast at b
  rw [abs_of_pos (show 0 < 0.2 * ct.T post * P / ct.P post by positivity)] at b
  have c : 7 * u / (1 - 7 * u) ≤ 0.01 := by
    rw [div_le_iff₀ (by linarith)]; linarith
  have t := (abs_le.mp b).2
  have x0 : 0 < 0.2 * ct.T post * P / ct.P post := by positivity
  have t' : T ≤ 1.01 * (0.2 * ct.T post * P / ct.P post) := by nlinarith
  have t'' : T * ct.P post ≤ 0.202 * (ct.T post * P) := by
    calc T * ct.P post ≤ 1.01 * (0.2 * ct.T post * P / ct.P post) * ct.P post := by gcongr
      _ = 0.202 * (ct.T post * P) := by field_simp; norm_num
  have y0 : 0 < ct.T post * P := by positivity
  have z : 0.5 * (ct.density post * (ct.T post * P)) ≤ ct.density w * (T * ct.P post) := by
    have : 0 < ct.density post * (ct.T post * P) := by positivity
    nlinarith
  by_contra hn
  have hn := not_le.mp hn
  have tp : 0 < T * ct.P post := by positivity
  have : ct.density w * (T * ct.P post) < 2 * ct.density post * (0.202 * (ct.T post * P)) := by
    calc ct.density w * (T * ct.P post) < 2 * ct.density post * (T * ct.P post) := by gcongr
      _ ≤ _ := by gcongr
  have q : 0 < ct.density post * (ct.T post * P) := by positivity
  nlinarith

/-- C125: what comes back.  The pressure is that of the gas, which is hotter than absolute zero and at least as dense as the
post-shock gas up to two roundings; and with `w` the particle speed, the returned reflected shock speed `Ur` closes the
momentum balance `ρ₂ (Ur + w) w = P - P₂` up to `4 u` of the pressure rise and `2 u` of `ρ₂ w Ur`. -/
theorem C125_reflect (H : fp.Accurate u κ) (hu : u ≤ 1 / 1000) (M : fp.Monotone) (G : fp.Grid u) (hl : LawfulPosTV ct) {ε : ℝ}
    (hε : ε ≤ 1 / 2) (hi : IdealTPX ct post ε) (h2 : 0 < ct.density post) (hT : 0 < ct.T post) (hP : 0 < ct.P post)
    {P Ur : ℝ} {g : ct.Gas} (h : reflectR fp ct initial post working U = .ok (P, Ur, g)) :
    P = ct.P g ∧ 0 < ct.T g ∧ (1 - 2 * u) * ct.density post ≤ ct.density g ∧
    ∃ w, particleSpeedR fp ct initial post = .ok w ∧ 0 < w ∧
      |ct.density post * (Ur + w) * w - (P - ct.P post)| ≤
        4 * u * |P - ct.P post| + 2 * u * (ct.density post * w * |Ur|) := by
  have u0 := H.nonneg; have u1 := H.lt_one
  simp only [reflectR, bind_eq_ok, pyDivR_eq_ok] at h
  obtain ⟨w, hw, guess, hg, wg, hset, out, hout, _, ⟨w0, rfl⟩, _, ⟨-, rfl⟩, h⟩ := h
  cases h
  obtain ⟨t0, d0⟩ := C125_start_denser H hu hε hi h2 hT hP hg hset
  have hrun : getEqStateR fp ct w post wg (fp.rnd 1e-4) (fp.rnd 1e-4) 500 500 = some (.ok out) := by
    obtain ⟨r, hr⟩ := C124_terminates_reflected (fp := fp) (ct := ct) (u := w) (post := post) (working := wg)
      (tolT := fp.rnd 1e-4) (tolV := fp.rnd 1e-4) (maxIter := 500) (fuel := 500) (by norm_num) (by norm_num)
    rw [getEqStateDefaultR, hr, Option.getD_some] at hout
    rw [hr, hout]
  obtain ⟨r1, r2⟩ := C124_reflected_returned_gas H hu M G hl (by norm_num) t0 h2 (by linarith) hrun
  have wpos : 0 < w := by
    refine lt_of_le_of_ne ?_ (Ne.symm w0)
    simp only [particleSpeedR, bind_eq_ok, npSqrt_eq_ok] at hw
    obtain ⟨_, -, _, -, _, ⟨-, rfl⟩, hw⟩ := hw
    cases hw
    exact rnd_nonneg' H (Real.sqrt_nonneg _)
  refine ⟨rfl, r1, r2, w, hw, wpos, ?_⟩
  set X := ct.P out.gas - ct.P post
  set b := fp.rnd (fp.rnd (fp.rnd X / w) / ct.density post)
  have nb : Near u 3 (X / w / ct.density post) b :=
    H.round (Near.div u0 u1 (H.round (Near.div u0 u1 (H.round (Near.refl u X)) (Near.refl u w))) (Near.refl u _))
  have k0 : 0 < ct.density post * w := by positivity
  have hb : |ct.density post * w * b - X| ≤ 4 * u * |X| := by
    have h := Near.mul u0 u1 nb (Near.refl u (ct.density post * w))
    have e : X / w / ct.density post * (ct.density post * w) = X := by field_simp
    rw [e] at h
    have h' := Near.bound u0 u1 (n := 3) (by push_cast; linarith) h
    rw [mul_comm]
    refine h'.trans (mul_le_mul_of_nonneg_right ?_ (abs_nonneg _))
    push_cast
    rw [div_le_iff₀ (by linarith)]; nlinarith
  have hr := H.rnd (b - w)
  set Ur := fp.rnd (b - w)
  have hs : |b - w| ≤ 2 * |Ur| := by
    have := abs_sub_abs_le_abs_sub (b - w) Ur
    rw [abs_sub_comm (b - w) Ur] at this
    nlinarith [abs_nonneg (b - w), abs_nonneg Ur]
  have e : ct.density post * (Ur + w) * w - X =
      (ct.density post * w * b - X) + ct.density post * w * (Ur - (b - w)) := by ring
  rw [e]
  refine (abs_add_le _ _).trans (add_le_add hb ?_)
  rw [abs_mul, abs_of_pos k0]
  calc ct.density post * w * |Ur - (b - w)| ≤ ct.density post * w * (u * (2 * |Ur|)) := by
        gcongr; exact hr.trans (by gcongr)
    _ = _ := by ring

/-! ### the hypotheses are met: a perfect gas -/

theorem perfect_lawfulPos {R cp q : ℝ} (hR : 0 < R) : LawfulPosTV (perfect R cp q) where
  setTD := fun g T ρ g' hT hρ h => by
    cases h
    refine ⟨rfl, ?_⟩
    change R * T * ρ / (R * T) = ρ
    field_simp
  equilibrate := fun g g' h => by cases h; exact ⟨rfl, rfl⟩

theorem perfect_idealTPX {R cp q : ℝ} (hR : 0 < R) {post : PGas} (hT : 0 < post.T) :
    IdealTPX (perfect R cp q) post 0 where
  T := fun _ _ _ _ h => by cases h; rfl
  P := fun _ _ _ _ h => by cases h; rfl
  law := fun g T P g' h0 _ h => by
    cases h
    change |P / (R * T) * T * post.P - post.P / (R * post.T) * post.T * P| ≤ 0 * _
    have : P / (R * T) * T * post.P - post.P / (R * post.T) * post.T * P = 0 := by field_simp; ring
    rw [this]; simp

/-- The run of `reflect` of `Props/ReflectedPerfect.lean`, as a run of the rounded code in exact arithmetic. -/
example : ∃ P3 Ur, reflectR FP.exact (perfect 1 (7 / 2) 0) (PGas.mk 22.9 0.5 false) (PGas.mk 1 1 true) (PGas.mk 1 1 true)
      (5 / 4 * Real.sqrt (112 / 5)) = .ok (P3, Ur, PGas.mk 5.8 29 true) ∧
    ∃ w, 0 < w ∧ |(perfect 1 (7 / 2) 0).density (PGas.mk 1 1 true) * (Ur + w) * w - (P3 - 1)| ≤
      4 * 0 * |P3 - 1| + 2 * 0 * ((perfect 1 (7 / 2) 0).density (PGas.mk 1 1 true) * w * |Ur|) := by
  obtain ⟨-, ⟨P3, Ur, h⟩, -⟩ := exR_run
  obtain ⟨A, M, G⟩ := exact_arithmetic
  have e := (C125_exact (PGas.mk 22.9 0.5 false) (PGas.mk 1 1 true) (PGas.mk 1 1 true) (5 / 4 * Real.sqrt (112 / 5))
    (ct := perfect 1 (7 / 2) 0)).trans h
  obtain ⟨-, -, -, w, -, w0, hw⟩ := C125_reflect A (by norm_num) M G (perfect_lawfulPos one_pos) (ε := 0) (by norm_num)
    (perfect_idealTPX one_pos (post := PGas.mk 1 1 true) one_pos)
    (by change (0 : ℝ) < 1 / (1 * 1); norm_num) (by change (0 : ℝ) < 1; norm_num) (by change (0 : ℝ) < 1; norm_num) e
  exact ⟨P3, Ur, e, w, w0, hw⟩

/-- In double precision, the particle speed behind a detonation of a perfect gas from 1 bar to 17 bar with densities 1.2 and
2.16 (temperatures in units where the gas constant is 1). -/
example : ∃ w, particleSpeedR FP.double (perfect 1 (7 / 2) 0) (PGas.mk (100000 / 1.2) 100000 false)
      (PGas.mk (1700000 / 2.16) 1700000 true) = .ok w ∧
    Near ((1 / 2) ^ 53) 12 (Real.sqrt (1600000 * (1 / 1.2 - 1 / 2.16))) w := by
  have d1 : (perfect 1 (7 / 2) 0).density (PGas.mk (100000 / 1.2) 100000 false) = 1.2 := by
    change (100000 : ℝ) / (1 * (100000 / 1.2)) = 1.2; norm_num
  have d2 : (perfect 1 (7 / 2) 0).density (PGas.mk (1700000 / 2.16) 1700000 true) = 2.16 := by
    change (1700000 : ℝ) / (1 * (1700000 / 2.16)) = 2.16; norm_num
  have p1 : (perfect 1 (7 / 2) 0).P (PGas.mk (100000 / 1.2) 100000 false) = 100000 := rfl
  have p2 : (perfect 1 (7 / 2) 0).P (PGas.mk (1700000 / 2.16) 1700000 true) = 1700000 := rfl
  obtain ⟨w, h, n⟩ := C125_particle_speed FP.double_accurate (ct := perfect 1 (7 / 2) 0) (A := 4)
    (initial := PGas.mk (100000 / 1.2) 100000 false) (post := PGas.mk (1700000 / 2.16) 1700000 true)
    (by rw [d1]; norm_num) (by rw [d1, d2]; norm_num) (by rw [p1, p2]; norm_num) (by rw [d1, d2]; norm_num) (by norm_num)
  rw [d1, d2, p1, p2] at n
  refine ⟨w, h, ?_⟩
  norm_num at n ⊢
  exact n

end Pypbomb.SD
