/-
Property C122: the dynamic load factor with an infinite argument.
-/
import Mathlib.Analysis.SpecialFunctions.Pow.Continuity
import Verif.Props.Inf

namespace Pypbomb
open QX Filter Topology

section Dlf
variable {qi qo qv qE qr : Quantity} {i o v E rho nu pm : ℝ} {r r' : ℕ} {u : PUnit}

private theorem inf_hasD {d : Dim} (hu : u.dim = d) (ho : u.offset = 0) : HasX ⟨.pinf, u, r⟩ d .pinf r :=
  ⟨hu, ho, rfl, rfl⟩

private theorem num_hasD {d : Dim} (hu : u.dim = d) (ho : u.offset = 0) (y : ℝ) :
    HasVal ⟨y, u, r⟩ d (y * u.scale) r := ⟨hu, ho, rfl, rfl⟩

private theorem checked_pos {q : QX} {kind : String} {d : Dim} {w : Xf}
    (hk : supportedDims.lookup kind = some d) (h : HasX q d w r) (hv : w = .pinf ∨ ∃ y, 0 ≤ y ∧ w = .fin y) :
    checkedX (.quantity q) kind true = .ok q := by
  have : checkX q kind true = .ok () := by
    obtain ⟨m, u, r'⟩ := q
    obtain ⟨hd, ho, hv', hr⟩ := h
    dsimp at hd ho hv' hr
    cases m with
    | nan => rcases hv with rfl | ⟨y, -, rfl⟩ <;> simp at hv'
    | ninf => rcases hv with rfl | ⟨y, -, rfl⟩ <;> simp at hv'
    | pinf => exact checkQ_ok hk hd (by simp [Quantity.phys, PUnit.base])
    | fin z =>
      refine checkQ_ok (q := ⟨z, u, r'⟩) hk hd ?_
      rcases hv with rfl | ⟨y, hy, rfl⟩
      · simp at hv'
      · simp only [Xf.affine_fin, Xf.fin_inj] at hv'
        show 0 ≤ z * u.scale + u.offset
        rw [ho, hv']; exact hy
  simp only [checkedX, this, ok_bind]

private theorem checked_any {q : QX} {kind : String} {d : Dim} {w : Xf}
    (hk : supportedDims.lookup kind = some d) (h : HasX q d w r) : checkedX (.quantity q) kind false = .ok q := by
  have : checkX q kind false = .ok () := by
    obtain ⟨m, u, r'⟩ := q
    obtain ⟨hd, ho, hv', hr⟩ := h
    dsimp at hd ho hv' hr
    cases m <;> exact (checkQ_ok_iff hk).mpr ⟨hd, by simp⟩
  simp only [checkedX, this, ok_bind]

private theorem crit_eval {zi zo zE zr : QX} {xi xo xE xr xn w : Xf} (hi : HasX zi Dim.length xi r)
    (ho : HasX zo Dim.length xo r) (hE : HasX zE Dim.pressure xE r) (hr : HasX zr Dim.density xr r) {num den : Xf}
    (hnum : (xE.mul xE).mul (((xo.sub xi).div (.fin 2)).mul ((xo.sub xi).div (.fin 2))) = num)
    (hden : ((Xf.fin 1).sub (xn.mul xn)).mul (((Xf.fin 3).mul (xr.mul xr)).mul
      (((xo.add xi).div (.fin 4)).mul ((xo.add xi).div (.fin 4)))) = den)
    (d0 : den ≠ .fin 0)
    (hw : (num.div den = .nan ∧ w = .nan) ∨ (num.div den = .pinf ∧ w = .pinf) ∨
      ∃ x, 0 ≤ x ∧ num.div den = .fin x ∧ w = .fin (x ^ (((1 / 4 : ℚ)) : ℝ))) :
    ∃ c, Tube.critVelocityX zi zo zE zr xn = .ok c ∧ HasX c Dim.velocity w r := by
  obtain ⟨c1, e1, h1⟩ := ho.add hi
  obtain ⟨c2, e2, h2⟩ := h1.divNum (k := .fin 4) (by simp)
  obtain ⟨c3, e3, h3⟩ := ho.sub hi
  obtain ⟨c4, e4, h4⟩ := h3.divNum (k := .fin 2) (by simp)
  obtain ⟨c5, e5, h5⟩ := hE.sq
  obtain ⟨c6, e6, h6⟩ := h4.sq
  obtain ⟨c7, e7, h7⟩ := h5.mul h6
  obtain ⟨c8, e8, h8⟩ := hr.sq
  obtain ⟨c9, e9, h9⟩ := h8.scale (.fin 3)
  obtain ⟨c10, e10, h10⟩ := h2.sq
  obtain ⟨c11, e11, h11⟩ := h9.mul h10
  obtain ⟨c12, e12, h12⟩ := h11.scale ((Xf.fin 1).sub (xn.mul xn))
  rw [hden] at h12
  rw [hnum] at h7
  obtain ⟨c13, e13, h13⟩ := h7.div h12 d0
  obtain ⟨c14, e14, h14⟩ := h13.root (p := 1 / 4) (by norm_num) (by
    rcases hw with ⟨h, -⟩ | ⟨h, -⟩ | ⟨x, hx, h, -⟩
    · exact .inl h
    · exact .inr (.inl h)
    · exact .inr (.inr ⟨x, hx, h⟩))
  refine ⟨c14, ?_, h14.cast (by dims) ?_⟩
  · simp only [Tube.critVelocityX, e1, e2, e3, e4, e5, e6, e7, e8, e9, e10, e11, e12, e13, e14, ok_bind]
  · rcases hw with ⟨h, rfl⟩ | ⟨h, rfl⟩ | ⟨x, hx, h, rfl⟩ <;> rw [h]

private theorem mag_of {q : QX} {d : Dim} {w : Xf} (h : HasX q d w r) (hu : q.unit = PUnit.meterPerSecond) :
    q.mag = w := by
  rw [← h.val, hu]
  show _ = q.mag.affine 1 0
  cases q.mag <;> simp

private theorem dlf_main {zi zo zv zE zr : QX} {xi xo xv xE xr xn cv : Xf} (hi : HasX zi Dim.length xi r)
    (ho : HasX zo Dim.length xo r) (hv : HasX zv Dim.velocity xv r') (hE : HasX zE Dim.pressure xE r)
    (hr : HasX zr Dim.density xr r)
    (i0 : xi = .pinf ∨ ∃ y, 0 ≤ y ∧ xi = .fin y) (o0 : xo = .pinf ∨ ∃ y, 0 ≤ y ∧ xo = .fin y)
    (E0 : xE = .pinf ∨ ∃ y, 0 ≤ y ∧ xE = .fin y) (r0 : xr = .pinf ∨ ∃ y, 0 ≤ y ∧ xr = .fin y)
    (hpm : 0 < pm ∧ pm < 1)
    (hc : ∃ c, Tube.critVelocityX zi zo zE zr xn = .ok c ∧ HasX c Dim.velocity cv r) :
    Tube.dynamicLoadFactorX (.quantity zi) (.quantity zo) (.quantity zv) (.quantity zE) (.quantity zr) xn (.fin pm) =
      .ok (if Xf.lt xv ((Xf.fin (1 - pm)).mul cv) = true then 1
        else if Xf.lt ((Xf.fin (1 + pm)).mul cv) xv = true then 2 else 4) := by
  obtain ⟨c, ec, hc⟩ := hc
  obtain ⟨c1, e1, h1⟩ := hc.scale (.fin (1 + pm))
  obtain ⟨c2, e2, h2, u2⟩ := h1.convert (u := PUnit.meterPerSecond) rfl rfl
  obtain ⟨c3, e3, h3⟩ := hc.scale (.fin (1 - pm))
  obtain ⟨c4, e4, h4, u4⟩ := h3.convert (u := PUnit.meterPerSecond) rfl rfl
  obtain ⟨c5, e5, h5, u5⟩ := hv.convert (u := PUnit.meterPerSecond) rfl rfl
  simp only [Tube.dynamicLoadFactorX, checked_pos lookup_length hi i0, checked_pos lookup_length ho o0,
    checked_any lookup_velocity hv, checked_pos lookup_pressure hE E0, checked_pos lookup_density hr r0, ok_bind,
    Xf.lt_fin, hpm.1, hpm.2, decide_true, and_self, not_true, if_false, ec, Xf.add_fin, Xf.sub_fin, e1, e2, e3, e4, e5,
    mag_of h2 u2, mag_of h4 u4, mag_of h5 u5]
  split
  · rfl
  · split <;> rfl

private theorem crit_fin (h : Tube.DlfArgs qi qo qv qE qr i o v E rho nu r r') :
    ∃ c, Tube.critVelocityX (ofQ qi) (ofQ qo) (ofQ qE) (ofQ qr) (.fin nu) = .ok c ∧
      HasX c Dim.velocity (.fin (Tube.Vcrit i o E rho nu)) r := by
  obtain ⟨q, e, hq⟩ := Tube.critVelocity_eval h.hi h.ho h.hE h.hr h.s0.ne' h.rho0.ne' h.nu1
  rw [Tube.crit4_root] at hq
  exact ⟨ofQ q, by rw [crit_agreesX, e]; rfl, .ofQ hq⟩

private theorem dlf_val (h : Tube.DlfArgs qi qo qv qE qr i o v E rho nu r r') (hpm : 0 < pm ∧ pm < 1) :
    Tube.dynamicLoadFactor (.quantity qi) (.quantity qo) (.quantity qv) (.quantity qE) (.quantity qr) nu pm =
      .ok (if v < (1 - pm) * Tube.Vcrit i o E rho nu then 1
        else if (1 + pm) * Tube.Vcrit i o E rho nu < v then 2 else 4) := by
  rw [← Tube.crit4_root]
  exact Tube.dlf_eval h.hi h.ho h.hv h.hE h.hr h.i0 h.o0 h.s0 h.E0 h.rho0 h.nu1 hpm

/-- The calls eventually return `a`. -/
private theorem limit_ev {f : ℝ → Py ℝ} {a : ℝ} (h : ∀ᶠ y in atTop, f y = .ok a) : LimitAt f (.fin a) :=
  limit_fin (g := fun _ => a) h tendsto_const_nhds

/-- C122: an infinitely fast wave gives 2, as does every fast enough wave; one of speed `-inf` gives 1, as does every
negative speed. -/
theorem C122_velocity_partial (h : Tube.DlfArgs qi qo qv qE qr i o v E rho nu r r') (hpm : 0 < pm ∧ pm < 1)
    (hu : u.dim = Dim.velocity) (ho : u.offset = 0) :
    (Tube.dynamicLoadFactorX (.quantity (ofQ qi)) (.quantity (ofQ qo)) (.quantity ⟨.pinf, u, r'⟩) (.quantity (ofQ qE))
        (.quantity (ofQ qr)) (.fin nu) (.fin pm) = .ok 2 ∧
      LimitAt (fun y => Tube.dynamicLoadFactor (.quantity qi) (.quantity qo) (.quantity ⟨y, u, r'⟩) (.quantity qE)
        (.quantity qr) nu pm) (.fin 2)) ∧
    Tube.dynamicLoadFactorX (.quantity (ofQ qi)) (.quantity (ofQ qo)) (.quantity ⟨.ninf, u, r'⟩) (.quantity (ofQ qE))
        (.quantity (ofQ qr)) (.fin nu) (.fin pm) = .ok 1 ∧
      ∀ y < 0, Tube.dynamicLoadFactor (.quantity qi) (.quantity qo) (.quantity ⟨y, u, r'⟩) (.quantity qE)
        (.quantity qr) nu pm = .ok 1 := by
  have V0 := (Tube.C32_Vcrit_fourth_power (i := i) (o := o) (E := E) (rho := rho) h.nu1).1
  have hlu : (1 - pm) * Tube.Vcrit i o E rho nu ≤ (1 + pm) * Tube.Vcrit i o E rho nu := by nlinarith [hpm.1]
  have args : ∀ y, Tube.DlfArgs qi qo ⟨y, u, r'⟩ qE qr i o (y * u.scale) E rho nu r r' := fun y =>
    { h with hv := num_hasD hu ho y }
  refine ⟨⟨?_, limit_ev ?_⟩, ?_, fun y hy => ?_⟩
  · rw [dlf_main (.ofQ h.hi) (.ofQ h.ho) (inf_hasD hu ho) (.ofQ h.hE) (.ofQ h.hr) (.inr ⟨_, h.i0, rfl⟩)
      (.inr ⟨_, h.o0, rfl⟩) (.inr ⟨_, h.E0, rfl⟩) (.inr ⟨_, h.rho0.le, rfl⟩) hpm (crit_fin h)]
    simp [Xf.lt]
  · filter_upwards [(tendsto_id.atTop_mul_const u.pos).eventually_gt_atTop ((1 + pm) * Tube.Vcrit i o E rho nu)] with y hy
    rw [dlf_val (args y) hpm, if_neg (by simp only [id] at hy; linarith), if_pos (by simpa using hy)]
  · have hx : HasX (⟨.ninf, u, r'⟩ : QX) Dim.velocity .ninf r' := ⟨hu, ho, rfl, rfl⟩
    rw [dlf_main (.ofQ h.hi) (.ofQ h.ho) hx (.ofQ h.hE) (.ofQ h.hr) (.inr ⟨_, h.i0, rfl⟩)
      (.inr ⟨_, h.o0, rfl⟩) (.inr ⟨_, h.E0, rfl⟩) (.inr ⟨_, h.rho0.le, rfl⟩) hpm (crit_fin h)]
    simp [Xf.lt]
  · rw [dlf_val (args y) hpm, if_pos]
    have := mul_neg_of_neg_of_pos hy u.pos
    have : 0 ≤ (1 - pm) * Tube.Vcrit i o E rho nu := mul_nonneg (by linarith [hpm.2]) V0
    linarith

/-- The critical velocity is proportional to the square root of the modulus. -/
private theorem Vcrit_E (hnu : nu ^ 2 < 1) (E0 : 0 ≤ E) :
    Tube.Vcrit i o E rho nu = Real.sqrt E * Tube.Vcrit i o 1 rho nu := by
  have hn : 0 < 1 - nu ^ 2 := by linarith
  unfold Tube.Vcrit
  rw [show E ^ 2 * ((o - i) / 2) ^ 2 / (3 * rho ^ 2 * ((o + i) / 4) ^ 2 * (1 - nu ^ 2)) =
    E ^ 2 * (1 ^ 2 * ((o - i) / 2) ^ 2 / (3 * rho ^ 2 * ((o + i) / 4) ^ 2 * (1 - nu ^ 2))) by ring,
    Real.mul_rpow (by positivity) (by positivity), Real.sqrt_eq_rpow, ← Real.rpow_natCast E 2, ← Real.rpow_mul E0]
  norm_num

/-- It is inversely proportional to the square root of the density. -/
private theorem Vcrit_rho (hnu : nu ^ 2 < 1) (rho0 : 0 < rho) :
    Tube.Vcrit i o E rho nu = Tube.Vcrit i o E 1 nu / Real.sqrt rho := by
  have hn : 0 < 1 - nu ^ 2 := by linarith
  unfold Tube.Vcrit
  rw [show E ^ 2 * ((o - i) / 2) ^ 2 / (3 * rho ^ 2 * ((o + i) / 4) ^ 2 * (1 - nu ^ 2)) =
    (E ^ 2 * ((o - i) / 2) ^ 2 / (3 * 1 ^ 2 * ((o + i) / 4) ^ 2 * (1 - nu ^ 2))) / rho ^ 2 by
      rw [div_div]; congr 1; ring,
    Real.div_rpow (by positivity) (by positivity), Real.sqrt_eq_rpow, ← Real.rpow_natCast rho 2,
    ← Real.rpow_mul rho0.le]
  norm_num

private theorem Vcrit_pos (hnu : nu ^ 2 < 1) (E0 : 0 < E) (rho0 : 0 < rho) (hio : o ≠ i) (hs : 0 < o + i) :
    0 < Tube.Vcrit i o E rho nu := by
  have hn : 0 < 1 - nu ^ 2 := by linarith
  have : o - i ≠ 0 := sub_ne_zero.mpr hio
  unfold Tube.Vcrit
  positivity

/-- C122: for an infinite modulus (and a wall) every wave gives 1, as for every large enough modulus. -/
theorem C122_modulus_partial (h : Tube.DlfArgs qi qo qv qE qr i o v E rho nu r r') (hpm : 0 < pm ∧ pm < 1)
    (hio : o ≠ i) (hu : u.dim = Dim.pressure) (ho : u.offset = 0) :
    Tube.dynamicLoadFactorX (.quantity (ofQ qi)) (.quantity (ofQ qo)) (.quantity (ofQ qv)) (.quantity ⟨.pinf, u, r⟩)
        (.quantity (ofQ qr)) (.fin nu) (.fin pm) = .ok 1 ∧
      LimitAt (fun y => Tube.dynamicLoadFactor (.quantity qi) (.quantity qo) (.quantity qv) (.quantity ⟨y, u, r⟩)
        (.quantity qr) nu pm) (.fin 1) := by
  have hn : 0 < 1 - nu ^ 2 := by linarith [h.nu1]
  have hr := h.rho0
  have hs := h.s0
  have hd : o - i ≠ 0 := sub_ne_zero.mpr hio
  constructor
  · have hden : 0 < (1 - nu * nu) * (3 * (rho * rho) * ((o + i) / 4 * ((o + i) / 4))) := by
      rw [← pow_two nu]; positivity
    rw [dlf_main (cv := .pinf) (.ofQ h.hi) (.ofQ h.ho) (.ofQ h.hv) (inf_hasD hu ho) (.ofQ h.hr) (.inr ⟨_, h.i0, rfl⟩)
      (.inr ⟨_, h.o0, rfl⟩) (.inl rfl) (.inr ⟨_, h.rho0.le, rfl⟩) hpm (crit_eval (.ofQ h.hi) (.ofQ h.ho)
        (inf_hasD hu ho) (.ofQ h.hr) (num := .pinf)
        (den := .fin ((1 - nu * nu) * (3 * (rho * rho) * ((o + i) / 4 * ((o + i) / 4)))))
        (by simp only [Xf.pinf_pinf, Xf.sub_fin, Xf.div_fin, Xf.mul_fin]; rw [Xf.pinf_mul]
            rw [← pow_two]; positivity)
        (by simp) (by simpa using hden.ne') (.inr (.inl ⟨Xf.pinf_div hden, rfl⟩)))]
    rw [Xf.mul_pinf (by linarith [hpm.2]), if_pos (by simp [Xf.lt])]
  · refine limit_ev ?_
    have V1 := Vcrit_pos h.nu1 one_pos hr hio hs
    have hl : Tendsto (fun y : ℝ => Real.sqrt (y * u.scale) * ((1 - pm) * Tube.Vcrit i o 1 rho nu)) atTop atTop :=
      (Real.tendsto_sqrt_atTop.comp (tendsto_id.atTop_mul_const u.pos)).atTop_mul_const
        (mul_pos (by linarith [hpm.2]) V1)
    filter_upwards [hl.eventually_gt_atTop v, eventually_ge_atTop 0] with y hy y0
    have args : Tube.DlfArgs qi qo qv ⟨y, u, r⟩ qr i o v (y * u.scale) rho nu r r' :=
      { h with hE := num_hasD hu ho y, E0 := mul_nonneg y0 u.pos.le }
    rw [dlf_val args hpm, if_pos]
    rw [Vcrit_E h.nu1 (mul_nonneg y0 u.pos.le)]
    linarith

/-- C122: for an infinite density every forward wave gives 2 and every backward wave 1, as for every large enough
density. -/
theorem C122_density_partial (h : Tube.DlfArgs qi qo qv qE qr i o v E rho nu r r') (hpm : 0 < pm ∧ pm < 1)
    (hu : u.dim = Dim.density) (ho : u.offset = 0) (hv : v ≠ 0) :
    ∃ f, (f = if 0 < v then 2 else 1) ∧
      Tube.dynamicLoadFactorX (.quantity (ofQ qi)) (.quantity (ofQ qo)) (.quantity (ofQ qv)) (.quantity (ofQ qE))
        (.quantity ⟨.pinf, u, r⟩) (.fin nu) (.fin pm) = .ok f ∧
      LimitAt (fun y => Tube.dynamicLoadFactor (.quantity qi) (.quantity qo) (.quantity qv) (.quantity qE)
        (.quantity ⟨y, u, r⟩) nu pm) (.fin f) := by
  have hn : 0 < 1 - nu ^ 2 := by linarith [h.nu1]
  have hs := h.s0
  refine ⟨_, rfl, ?_, limit_ev ?_⟩
  · rw [dlf_main (cv := .fin 0) (.ofQ h.hi) (.ofQ h.ho) (.ofQ h.hv) (.ofQ h.hE) (inf_hasD hu ho) (.inr ⟨_, h.i0, rfl⟩)
      (.inr ⟨_, h.o0, rfl⟩) (.inr ⟨_, h.E0, rfl⟩) (.inl rfl) hpm (crit_eval (.ofQ h.hi) (.ofQ h.ho)
        (.ofQ h.hE) (inf_hasD hu ho) (num := .fin (E * E * ((o - i) / 2 * ((o - i) / 2)))) (den := .pinf)
        (by simp)
        (by
          simp only [Xf.pinf_pinf, Xf.sub_fin, Xf.div_fin, Xf.mul_fin, Xf.add_fin]
          rw [Xf.mul_pinf (by norm_num), Xf.pinf_mul (by positivity), Xf.mul_pinf (by nlinarith)])
        (by simp) (.inr (.inr ⟨0, le_rfl, by simp, by rw [Real.zero_rpow (by norm_num)]⟩)))]
    rw [Xf.mul_fin, Xf.mul_fin, mul_zero, mul_zero, Xf.lt_fin, Xf.lt_fin]
    rcases lt_or_gt_of_ne hv with hlt | hgt
    · simp [hlt, not_lt.mpr hlt.le]
    · simp [hgt, not_lt.mpr hgt.le]
  · have V1 := (Tube.C32_Vcrit_fourth_power (i := i) (o := o) (E := E) (rho := 1) h.nu1).1
    have hl : Tendsto (fun y : ℝ => (1 + pm) * Tube.Vcrit i o E 1 nu / Real.sqrt (y * u.scale)) atTop (𝓝 0) :=
      (Real.tendsto_sqrt_atTop.comp (tendsto_id.atTop_mul_const u.pos)).const_div_atTop _
    filter_upwards [hl.eventually_lt_const (abs_pos.mpr hv), eventually_gt_atTop 0] with y hy y0
    have y0' := mul_pos y0 u.pos
    have args : Tube.DlfArgs qi qo qv qE ⟨y, u, r⟩ i o v E (y * u.scale) nu r r' :=
      { h with hr := num_hasD hu ho y, rho0 := y0' }
    have Vy := (Tube.C32_Vcrit_fourth_power (i := i) (o := o) (E := E) (rho := y * u.scale) h.nu1).1
    have e := Vcrit_rho (i := i) (o := o) (E := E) h.nu1 y0'
    rw [mul_div_assoc, ← e] at hy
    rw [dlf_val args hpm]
    rcases lt_or_gt_of_ne hv with hlt | hgt
    · rw [if_pos, if_neg (not_lt.mpr hlt.le)]
      exact lt_of_lt_of_le hlt (mul_nonneg (by linarith [hpm.2]) Vy)
    · rw [abs_of_pos hgt] at hy
      rw [if_neg, if_pos hy, if_pos hgt]
      have : (1 - pm) * Tube.Vcrit i o E (y * u.scale) nu ≤ (1 + pm) * Tube.Vcrit i o E (y * u.scale) nu := by
        nlinarith [hpm.1]
      linarith

/-- C122: an infinite tolerance is refused. -/
theorem C122_tolerance_partial (h : Tube.DlfArgs qi qo qv qE qr i o v E rho nu r r') :
    IsValueError (Tube.dynamicLoadFactorX (.quantity (ofQ qi)) (.quantity (ofQ qo)) (.quantity (ofQ qv))
      (.quantity (ofQ qE)) (.quantity (ofQ qr)) (.fin nu) .pinf) ∧
    IsValueError (Tube.dynamicLoadFactorX (.quantity (ofQ qi)) (.quantity (ofQ qo)) (.quantity (ofQ qv))
      (.quantity (ofQ qE)) (.quantity (ofQ qr)) (.fin nu) .ninf) := by
  have main : ∀ x : Xf, (x = .pinf ∨ x = .ninf) → Tube.dynamicLoadFactorX (.quantity (ofQ qi)) (.quantity (ofQ qo))
      (.quantity (ofQ qv)) (.quantity (ofQ qE)) (.quantity (ofQ qr)) (.fin nu) x =
      .error (.valueError "\nplus_or_minus factor not between 0 and 1") := by
    intro x hx
    simp only [Tube.dynamicLoadFactorX, checked_pos lookup_length (.ofQ h.hi) (.inr ⟨_, h.i0, rfl⟩),
      checked_pos lookup_length (.ofQ h.ho) (.inr ⟨_, h.o0, rfl⟩), checked_any lookup_velocity (.ofQ h.hv),
      checked_pos lookup_pressure (.ofQ h.hE) (.inr ⟨_, h.E0, rfl⟩),
      checked_pos lookup_density (.ofQ h.hr) (.inr ⟨_, h.rho0.le, rfl⟩), ok_bind]
    rcases hx with rfl | rfl <;> simp [Xf.lt]
  exact ⟨⟨_, main _ (.inl rfl)⟩, ⟨_, main _ (.inr rfl)⟩⟩

/-! ### The violations -/

/-- The critical velocity of a wall as thick as the tube is wide. -/
noncomputable def Vwide (E rho nu : ℝ) : ℝ := (4 * E ^ 2 / (3 * rho ^ 2 * (1 - nu ^ 2))) ^ ((1 : ℝ) / 4)

private theorem Vcrit_wide (hnu : nu ^ 2 < 1) (rho0 : 0 < rho) {s : ℝ} (hs : 0 < s) :
    Tendsto (fun y : ℝ => Tube.Vcrit i (y * s) E rho nu) atTop (𝓝 (Vwide E rho nu)) ∧
    Tendsto (fun y : ℝ => Tube.Vcrit (y * s) o E rho nu) atTop (𝓝 (Vwide E rho nu)) := by
  have hn : 0 < 1 - nu ^ 2 := by linarith
  have hline : Tendsto (fun y : ℝ => y * s) atTop atTop := tendsto_id.atTop_mul_const hs
  -- the ratio of wall to radius
  have key : ∀ a : ℝ, Tendsto (fun y : ℝ => (y * s - a) / (y * s + a)) atTop (𝓝 1) := by
    intro a
    have h1 : Tendsto (fun y : ℝ => 1 - 2 * a / (y * s + a)) atTop (𝓝 (1 - 0)) :=
      ((tendsto_atTop_add_const_right _ a hline).const_div_atTop (2 * a)).const_sub 1
    rw [sub_zero] at h1
    refine h1.congr' ?_
    filter_upwards [hline.eventually_gt_atTop (|a|)] with y hy
    have : 0 < y * s + a := by linarith [neg_abs_le a]
    field_simp; ring
  have fin : ∀ a : ℝ, Tendsto (fun y : ℝ => (4 * E ^ 2 / (3 * rho ^ 2 * (1 - nu ^ 2)) *
      ((y * s - a) / (y * s + a)) ^ 2) ^ ((1 : ℝ) / 4)) atTop (𝓝 (Vwide E rho nu)) := by
    intro a
    have h2 := ((key a).pow 2).const_mul (4 * E ^ 2 / (3 * rho ^ 2 * (1 - nu ^ 2)))
    rw [one_pow, mul_one] at h2
    exact (Real.continuousAt_rpow_const _ ((1 : ℝ) / 4) (.inr (by norm_num))).tendsto.comp h2
  constructor
  · refine (fin i).congr fun y => ?_
    unfold Tube.Vcrit
    congr 1
    rw [div_pow, div_pow, div_pow]
    by_cases h : y * s + i = 0
    · rw [h]; simp
    · field_simp; ring
  · refine (fin o).congr fun y => ?_
    unfold Tube.Vcrit
    congr 1
    rw [div_pow, div_pow, div_pow, show (o - y * s) ^ 2 = (y * s - o) ^ 2 by ring, add_comm o]
    by_cases h : y * s + o = 0
    · rw [h]; simp
    · field_simp; ring

/-- C122 is false of the code: for an infinite outer (or inner) diameter the result is 4 at every speed, but for all
large enough diameters it is 1 at speeds below `(1-d) Vwide` and 2 above `(1+d) Vwide`. -/
theorem C122_diameter_violated (h : Tube.DlfArgs qi qo qv qE qr i o v E rho nu r r') (hpm : 0 < pm ∧ pm < 1)
    (E1 : 0 < E) (hu : u.dim = Dim.length) (ho : u.offset = 0)
    (hv : v < (1 - pm) * Vwide E rho nu ∨ (1 + pm) * Vwide E rho nu < v) :
    (Tube.dynamicLoadFactorX (.quantity (ofQ qi)) (.quantity ⟨.pinf, u, r⟩) (.quantity (ofQ qv)) (.quantity (ofQ qE))
        (.quantity (ofQ qr)) (.fin nu) (.fin pm) = .ok 4 ∧
      ∃ f, (f = if v < (1 - pm) * Vwide E rho nu then 1 else 2) ∧
        LimitAt (fun y => Tube.dynamicLoadFactor (.quantity qi) (.quantity ⟨y, u, r⟩) (.quantity qv) (.quantity qE)
          (.quantity qr) nu pm) (.fin f)) ∧
    (Tube.dynamicLoadFactorX (.quantity ⟨.pinf, u, r⟩) (.quantity (ofQ qo)) (.quantity (ofQ qv)) (.quantity (ofQ qE))
        (.quantity (ofQ qr)) (.fin nu) (.fin pm) = .ok 4 ∧
      ∃ f, (f = if v < (1 - pm) * Vwide E rho nu then 1 else 2) ∧
        LimitAt (fun y => Tube.dynamicLoadFactor (.quantity ⟨y, u, r⟩) (.quantity qo) (.quantity qv) (.quantity qE)
          (.quantity qr) nu pm) (.fin f)) := by
  have hn : 0 < 1 - nu ^ 2 := by linarith [h.nu1]
  have hr := h.rho0
  have V0 : 0 ≤ Vwide E rho nu := by unfold Vwide; positivity
  have hlu : (1 - pm) * Vwide E rho nu ≤ (1 + pm) * Vwide E rho nu := by nlinarith [hpm.1]
  have hn' : 0 < 1 - nu * nu := by rw [← pow_two]; exact hn
  obtain ⟨l1, l2⟩ := Vcrit_wide (i := i) (o := o) (E := E) h.nu1 hr u.pos
  -- from a limit of the critical velocities to a limit of the factors
  have lim : ∀ {V : ℝ → ℝ}, Tendsto V atTop (𝓝 (Vwide E rho nu)) → ∀ᶠ y in atTop,
      (if v < (1 - pm) * V y then (1 : ℝ) else if (1 + pm) * V y < v then 2 else 4) =
        if v < (1 - pm) * Vwide E rho nu then 1 else 2 := by
    intro V hV
    rcases hv with hlt | hgt
    · filter_upwards [(hV.const_mul (1 - pm)).eventually_const_lt hlt] with y hy
      rw [if_pos hy, if_pos hlt]
    · filter_upwards [(hV.const_mul (1 + pm)).eventually_lt_const hgt,
        (hV.const_mul (1 - pm)).eventually_lt_const (hlu.trans_lt hgt)] with y hy hy2
      rw [if_neg (not_lt.mpr hy2.le), if_pos hy, if_neg (not_lt.mpr (hlu.trans hgt.le))]
  have hEE : 0 < E * E := mul_pos E1 E1
  refine ⟨⟨?_, _, rfl, limit_ev ?_⟩, ?_, _, rfl, limit_ev ?_⟩
  · rw [dlf_main (cv := .nan) (.ofQ h.hi) (inf_hasD hu ho) (.ofQ h.hv) (.ofQ h.hE) (.ofQ h.hr) (.inr ⟨_, h.i0, rfl⟩)
      (.inl rfl) (.inr ⟨_, h.E0, rfl⟩) (.inr ⟨_, hr.le, rfl⟩) hpm (crit_eval (.ofQ h.hi) (inf_hasD hu ho)
        (.ofQ h.hE) (.ofQ h.hr) (num := .pinf) (den := .pinf)
        (by rw [Xf.pinf_sub, Xf.pinf_div two_pos, Xf.pinf_pinf, Xf.mul_fin, Xf.mul_pinf hEE])
        (by rw [Xf.pinf_add, Xf.pinf_div (by norm_num), Xf.pinf_pinf, Xf.mul_fin, Xf.mul_fin, Xf.mul_fin, Xf.sub_fin,
              Xf.mul_pinf (by positivity), Xf.mul_pinf hn'])
        (by simp) (.inl ⟨by simp, rfl⟩))]
    simp [Xf.lt]
  · filter_upwards [lim l1, eventually_gt_atTop 0] with y hy y0
    have args : Tube.DlfArgs qi ⟨y, u, r⟩ qv qE qr i (y * u.scale) v E rho nu r r' :=
      { h with ho := num_hasD hu ho y, o0 := (mul_pos y0 u.pos).le, s0 := add_pos_of_pos_of_nonneg (mul_pos y0 u.pos) h.i0 }
    rw [dlf_val args hpm, hy]
  · rw [dlf_main (cv := .nan) (inf_hasD hu ho) (.ofQ h.ho) (.ofQ h.hv) (.ofQ h.hE) (.ofQ h.hr) (.inl rfl)
      (.inr ⟨_, h.o0, rfl⟩) (.inr ⟨_, h.E0, rfl⟩) (.inr ⟨_, hr.le, rfl⟩) hpm (crit_eval (inf_hasD hu ho) (.ofQ h.ho)
        (.ofQ h.hE) (.ofQ h.hr) (num := .pinf) (den := .pinf)
        (by rw [Xf.sub_pinf, Xf.ninf_div two_pos, Xf.ninf_ninf, Xf.mul_fin, Xf.mul_pinf hEE])
        (by rw [Xf.add_pinf, Xf.pinf_div (by norm_num), Xf.pinf_pinf, Xf.mul_fin, Xf.mul_fin, Xf.mul_fin, Xf.sub_fin,
              Xf.mul_pinf (by positivity), Xf.mul_pinf hn'])
        (by simp) (.inl ⟨by simp, rfl⟩))]
    simp [Xf.lt]
  · filter_upwards [lim l2, eventually_gt_atTop 0] with y hy y0
    have args : Tube.DlfArgs ⟨y, u, r⟩ qo qv qE qr (y * u.scale) o v E rho nu r r' :=
      { h with hi := num_hasD hu ho y, i0 := (mul_pos y0 u.pos).le, s0 := add_pos_of_nonneg_of_pos h.o0 (mul_pos y0 u.pos) }
    rw [dlf_val args hpm, hy]

/-- C122 is false of the code: an infinite Poisson ratio is accepted and gives 2 for every forward wave, but every
number above 1 is refused. -/
theorem C122_poisson_violated (h : Tube.DlfArgs qi qo qv qE qr i o v E rho nu r r') (hpm : 0 < pm ∧ pm < 1)
    (E1 : 0 < E) (hio : o ≠ i) (hv : 0 < v) :
    Tube.dynamicLoadFactorX (.quantity (ofQ qi)) (.quantity (ofQ qo)) (.quantity (ofQ qv)) (.quantity (ofQ qE))
        (.quantity (ofQ qr)) .pinf (.fin pm) = .ok 2 ∧
      ∀ y > 1, Raises (Tube.dynamicLoadFactor (.quantity qi) (.quantity qo) (.quantity qv) (.quantity qE) (.quantity qr)
        y pm) := by
  have hr := h.rho0
  have hs := h.s0
  have hd : o - i ≠ 0 := sub_ne_zero.mpr hio
  constructor
  · rw [dlf_main (cv := .fin 0) (.ofQ h.hi) (.ofQ h.ho) (.ofQ h.hv) (.ofQ h.hE) (.ofQ h.hr) (.inr ⟨_, h.i0, rfl⟩)
      (.inr ⟨_, h.o0, rfl⟩) (.inr ⟨_, h.E0, rfl⟩) (.inr ⟨_, hr.le, rfl⟩) hpm (crit_eval (.ofQ h.hi) (.ofQ h.ho)
        (.ofQ h.hE) (.ofQ h.hr) (num := .fin (E * E * ((o - i) / 2 * ((o - i) / 2)))) (den := .ninf) (by simp)
        (by
          rw [Xf.pinf_pinf, Xf.sub_pinf, Xf.mul_fin, Xf.mul_fin, Xf.add_fin, Xf.div_fin, Xf.mul_fin, Xf.mul_fin,
            Xf.ninf_mul (by positivity)])
        (by simp) (.inr (.inr ⟨0, le_rfl, by simp, by rw [Real.zero_rpow (by norm_num)]⟩)))]
    simp [hv, not_lt.mpr hv.le]
  · intro y hy
    obtain ⟨c1, e1, h1, -⟩ := add_spec h.ho h.hi
    obtain ⟨c2, e2, h2, -⟩ := divNum_spec (k := 4) (by norm_num) h1
    obtain ⟨c3, e3, h3, -⟩ := sub_spec h.ho h.hi
    obtain ⟨c4, e4, h4, -⟩ := divNum_spec (k := 2) (by norm_num) h3
    obtain ⟨c5, e5, h5⟩ := sq_spec h.hE
    obtain ⟨c6, e6, h6⟩ := sq_spec h4
    obtain ⟨c7, e7, h7⟩ := mul_spec h5 h6
    obtain ⟨c8, e8, h8⟩ := sq_spec h.hr
    obtain ⟨c9, e9, h9, -⟩ := scale_spec 3 h8
    obtain ⟨c10, e10, h10⟩ := sq_spec h2
    obtain ⟨c11, e11, h11⟩ := mul_spec h9 h10
    obtain ⟨c12, e12, h12, -⟩ := scale_spec (1 - y ^ 2) h11
    have hneg : 1 - y ^ 2 < 0 := by nlinarith
    have hden : (1 - y ^ 2) * (3 * rho ^ 2 * ((o + i) / 4) ^ 2) < 0 := mul_neg_of_neg_of_pos hneg (by positivity)
    obtain ⟨c13, e13, h13⟩ := div_spec h7 h12 hden.ne
    have hq : c13.mag < 0 := by
      have hval := h13.val
      have : E ^ 2 * ((o - i) / 2) ^ 2 / ((1 - y ^ 2) * (3 * rho ^ 2 * ((o + i) / 4) ^ 2)) < 0 :=
        div_neg_of_pos_of_neg (by positivity) hden
      rw [← hval] at this
      by_contra hc
      exact absurd this (not_lt.mpr (mul_nonneg (not_lt.mp hc) c13.unit.pos.le))
    have e14 : c13.pow (1 / 4) = .error .nonReal := by
      unfold Quantity.pow Quantity.noOffset
      rw [if_pos h13.off, ok_bind, if_pos ⟨hq, by decide +kernel⟩]
    refine ⟨.nonReal, ?_⟩
    simp only [Tube.dynamicLoadFactor, Tube.checked_ok lookup_length h.hi (fun _ => h.i0),
      Tube.checked_ok lookup_length h.ho (fun _ => h.o0),
      Tube.checked_ok (pos := false) lookup_velocity h.hv (fun h => by simp at h),
      Tube.checked_ok lookup_pressure h.hE (fun _ => h.E0),
      Tube.checked_ok lookup_density h.hr (fun _ => h.rho0.le), ok_bind, hpm.1, hpm.2, and_self, not_true, if_false,
      Tube.critVelocity, e1, e2, e3, e4, e5, e6, e7, e8, e9, e10, e11, e12, e13, e14, err_bind]

/-- C122 is false of the code at two edges: a wave at rest in an infinitely dense tube gives 4 but 1 for every number;
an infinite modulus without a wall gives 4, but for every number a forward wave gives 2. -/
theorem C122_edge_violated (h : Tube.DlfArgs qi qo qv qE qr i o v E rho nu r r') (hpm : 0 < pm ∧ pm < 1) :
    (u.dim = Dim.density → u.offset = 0 → v = 0 → 0 < E → o ≠ i →
      Tube.dynamicLoadFactorX (.quantity (ofQ qi)) (.quantity (ofQ qo)) (.quantity (ofQ qv)) (.quantity (ofQ qE))
        (.quantity ⟨.pinf, u, r⟩) (.fin nu) (.fin pm) = .ok 4 ∧
      ∀ y > 0, Tube.dynamicLoadFactor (.quantity qi) (.quantity qo) (.quantity qv) (.quantity qE) (.quantity ⟨y, u, r⟩)
        nu pm = .ok 1) ∧
    (u.dim = Dim.pressure → u.offset = 0 → o = i → 0 < v →
      Tube.dynamicLoadFactorX (.quantity (ofQ qi)) (.quantity (ofQ qo)) (.quantity (ofQ qv)) (.quantity ⟨.pinf, u, r⟩)
        (.quantity (ofQ qr)) (.fin nu) (.fin pm) = .ok 4 ∧
      ∀ y ≥ 0, Tube.dynamicLoadFactor (.quantity qi) (.quantity qo) (.quantity qv) (.quantity ⟨y, u, r⟩) (.quantity qr)
        nu pm = .ok 2) := by
  have hn : 0 < 1 - nu ^ 2 := by linarith [h.nu1]
  have hr := h.rho0
  have hs := h.s0
  refine ⟨fun hu ho hv E1 hio => ⟨?_, fun y hy => ?_⟩, fun hu ho hio hv => ⟨?_, fun y hy => ?_⟩⟩
  · rw [dlf_main (cv := .fin 0) (.ofQ h.hi) (.ofQ h.ho) (.ofQ h.hv) (.ofQ h.hE) (inf_hasD hu ho) (.inr ⟨_, h.i0, rfl⟩)
      (.inr ⟨_, h.o0, rfl⟩) (.inr ⟨_, h.E0, rfl⟩) (.inl rfl) hpm (crit_eval (.ofQ h.hi) (.ofQ h.ho)
        (.ofQ h.hE) (inf_hasD hu ho) (num := .fin (E * E * ((o - i) / 2 * ((o - i) / 2)))) (den := .pinf)
        (by simp)
        (by
          simp only [Xf.pinf_pinf, Xf.sub_fin, Xf.div_fin, Xf.mul_fin, Xf.add_fin]
          rw [Xf.mul_pinf (by norm_num), Xf.pinf_mul (by positivity), Xf.mul_pinf (by nlinarith)])
        (by simp) (.inr (.inr ⟨0, le_rfl, by simp, by rw [Real.zero_rpow (by norm_num)]⟩)))]
    simp [hv]
  · have args : Tube.DlfArgs qi qo qv qE ⟨y, u, r⟩ i o v E (y * u.scale) nu r r' :=
      { h with hr := num_hasD hu ho y, rho0 := mul_pos hy u.pos }
    rw [dlf_val args hpm, if_pos]
    rw [hv]
    exact mul_pos (by linarith [hpm.2]) (Vcrit_pos h.nu1 E1 (mul_pos hy u.pos) hio hs)
  · have hden : 0 < (1 - nu * nu) * (3 * (rho * rho) * ((o + i) / 4 * ((o + i) / 4))) := by
      rw [← pow_two nu]; positivity
    rw [dlf_main (cv := .nan) (.ofQ h.hi) (.ofQ h.ho) (.ofQ h.hv) (inf_hasD hu ho) (.ofQ h.hr) (.inr ⟨_, h.i0, rfl⟩)
      (.inr ⟨_, h.o0, rfl⟩) (.inl rfl) (.inr ⟨_, h.rho0.le, rfl⟩) hpm (crit_eval (.ofQ h.hi) (.ofQ h.ho)
        (inf_hasD hu ho) (.ofQ h.hr) (num := .nan)
        (den := .fin ((1 - nu * nu) * (3 * (rho * rho) * ((o + i) / 4 * ((o + i) / 4)))))
        (by simp [hio])
        (by simp) (by simpa using hden.ne') (.inl ⟨by simp, rfl⟩))]
    simp [Xf.lt]
  · have args : Tube.DlfArgs qi qo qv ⟨y, u, r⟩ qr i o v (y * u.scale) rho nu r r' :=
      { h with hE := num_hasD hu ho y, E0 := mul_nonneg hy u.pos.le }
    have V : Tube.Vcrit i o (y * u.scale) rho nu = 0 := by
      unfold Tube.Vcrit
      rw [hio, sub_self, zero_div, zero_pow two_ne_zero, mul_zero, zero_div, Real.zero_rpow (by norm_num)]
    rw [dlf_val args hpm, V, mul_zero, mul_zero, if_neg (not_lt.mpr hv.le), if_pos hv]

/-- Hypotheses of C122 are met: a 4/4.5 inch steel tube, a 2000 m/s wave (below `0.9 Vwide`), tolerance 0.1. -/
example : Tube.DlfArgs ⟨4, PUnit.inch, 0⟩ ⟨4.5, PUnit.inch, 0⟩ ⟨2000, PUnit.meterPerSecond, 1⟩
    ⟨200, PUnit.gigapascal, 0⟩ ⟨7.8, PUnit.gramPerCC, 0⟩ 0.1016 0.1143 2000 200000000000 7800 0.28 0 1 ∧
    (2000 : ℝ) < (1 - 0.1) * Vwide 200000000000 7800 0.28 := by
  refine ⟨⟨⟨rfl, rfl, ?_, rfl⟩, ⟨rfl, rfl, ?_, rfl⟩, ⟨rfl, rfl, ?_, rfl⟩, ⟨rfl, rfl, ?_, rfl⟩,
    ⟨rfl, rfl, ?_, rfl⟩, ?_, ?_, ?_, ?_, ?_, ?_⟩, ?_⟩
  on_goal 12 =>
    have h0 : (3000 : ℝ) ≤ Vwide 200000000000 7800 0.28 := by
      have e : ((3000 : ℝ) ^ (4 : ℕ)) ^ ((1 : ℝ) / 4) = 3000 := by
        rw [← Real.rpow_natCast, ← Real.rpow_mul (by norm_num)]; norm_num
      rw [← e]
      exact Real.rpow_le_rpow (by norm_num) (by norm_num) (by norm_num)
    linarith
  all_goals norm_num [PUnit.inch, PUnit.meterPerSecond, PUnit.base, PUnit.gigapascal, PUnit.gramPerCC]

end Dlf
end Pypbomb
