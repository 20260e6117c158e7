/-
Property C121 for bolts: an infinite pressure, window area, strength, engagement length or number of bolts.
-/
import Verif.Props.Inf

namespace Pypbomb
open QX Filter Topology

section Bolts
variable {reg : Registry} {size cls : String} {t : Bolt.Thread} {x : XIn}

/-- The number `y` in place of an infinite magnitude in a multiplicative unit. -/
theorem at_denotesM {d : Dim} (h : DenotesX reg x d .pinf) (hn : x.NoOffset reg) :
    ∃ s : ℝ, 0 < s ∧ ∀ y, DenotesM reg (x.at y) d (y * s) := by
  cases x with
  | quantity q =>
    refine ⟨q.unit.scale, q.unit.pos, fun y => ⟨⟨h.1, ?_⟩, hn⟩⟩
    show y * q.unit.scale + q.unit.offset = _
    rw [show q.unit.offset = 0 from hn, add_zero]
  | pair m s =>
    obtain ⟨u, h1, h2, h3⟩ := h
    refine ⟨u.scale, u.pos, fun y => ⟨⟨u, h1, h2, ?_⟩, hn⟩⟩
    rw [hn u h1, add_zero]
  | other => exact h.elim

private theorem line0 {s : ℝ} (hs : 0 < s) : Tendsto (fun y : ℝ => y * s) atTop atTop :=
  tendsto_id.atTop_mul_const hs

private theorem checkX_has {q : QX} {kind : String} {d : Dim} {v : Xf} {r : ℕ} (hk : supportedDims.lookup kind = some d)
    (h : HasX q d v r) (hv : v = .pinf ∨ ∃ y, 0 ≤ y ∧ v = .fin y) : checkX q kind true = .ok () := by
  obtain ⟨m, u, r'⟩ := q
  obtain ⟨hd, ho, hv', hr⟩ := h
  dsimp at hd ho hv' hr
  cases m with
  | nan => rcases hv with rfl | ⟨y, -, rfl⟩ <;> simp at hv'
  | ninf => rcases hv with rfl | ⟨y, -, rfl⟩ <;> simp at hv'
  | pinf => exact checkQ_ok hk hd (by simp [Quantity.phys, PUnit.base])
  | fin z =>
    refine checkQ_ok (q := ⟨z, u, r'⟩) hk hd ?_
    rcases hv with rfl | ⟨y, hy, rfl⟩
    · simp at hv'
    · simp only [Xf.affine_fin, Xf.fin_inj] at hv'
      show 0 ≤ z * u.scale + u.offset
      rw [ho, hv']; exact hy

private theorem checkedX_has {q : QX} {kind : String} {d : Dim} {v : Xf} {r : ℕ}
    (hk : supportedDims.lookup kind = some d) (h : HasX q d v r) (hv : v = .pinf ∨ ∃ y, 0 ≤ y ∧ v = .fin y) :
    checkedX (.quantity q) kind true = .ok q := by
  simp only [checkedX, checkX_has hk h hv, ok_bind]

private theorem rereg_hasX {q : QX} {d : Dim} {v : Xf} {r : ℕ} (reg : Registry) (h : HasX q d v r) :
    HasX (Bolt.reregX reg q) d v reg.id := ⟨h.dim, h.off, h.val, rfl⟩

/-- A thread shear area for an infinite engagement. -/
private theorem shear_inf {N kn es en : ℝ} {ql : QX} {r : ℕ} (hN : 0 < N) (hk : 0 < kn)
    (hg : 0 < 1 / 2 + 0.57735 * N * (es - en)) (hl : HasX ql Dim.length .pinf r) :
    ∃ q, Bolt.shearAreaX (ofQ ⟨N, PUnit.perInch, r⟩) ql (ofQ ⟨kn, PUnit.inch, r⟩) (ofQ ⟨es, PUnit.inch, r⟩)
      (ofQ ⟨en, PUnit.inch, r⟩) = .ok q ∧ HasX q Dim.area .pinf r := by
  have vn := HasX.ofQ (Bolt.perInch_val N r)
  have n0 : 0 < N / 0.0254 := by positivity
  obtain ⟨c1, e1, h1⟩ := vn.scale (.fin Real.pi)
  obtain ⟨c2, e2, h2⟩ := h1.mul hl
  obtain ⟨c3, e3, h3⟩ := h2.mul (.ofQ (Bolt.inch_val kn r))
  obtain ⟨c4, e4, h4⟩ := vn.scale (.fin 2)
  obtain ⟨c5, e5, h5⟩ := h4.rdiv 1 (by simpa using n0.ne')
  obtain ⟨c6, e6, h6⟩ := (HasX.ofQ (Bolt.inch_val es r)).sub (.ofQ (Bolt.inch_val en r))
  obtain ⟨c7, e7, h7⟩ := h6.scale (.fin 0.57735)
  obtain ⟨c8, e8, h8⟩ := (h5.cast (e := Dim.length) (by dims) rfl).add h7
  obtain ⟨c9, e9, h9⟩ := h3.mul h8
  refine ⟨c9, ?_, h9.cast (by dims) ?_⟩
  · simp only [Bolt.shearAreaX, e1, e2, e3, e4, e5, e6, e7, e8, e9, ok_bind]
  · have hpos : 0 < 1 / (2 * (N / 0.0254)) + 0.57735 * (es * 0.0254 - en * 0.0254) := by
      have : 1 / (2 * (N / 0.0254)) + 0.57735 * (es * 0.0254 - en * 0.0254) =
          0.0254 / N * (1 / 2 + 0.57735 * N * (es - en)) := by field_simp
      rw [this]; positivity
    rw [Xf.mul_fin, Xf.mul_pinf (by positivity), Xf.pinf_mul (by positivity), Xf.mul_fin, Xf.div_fin, Xf.sub_fin,
      Xf.mul_fin, Xf.add_fin, Xf.pinf_mul hpos]

/-- The tensile area of an infinitely strong bolt: that of every bolt of at least 100 000 psi. -/
private theorem tensile_inf {qb : QX} {bd es N : ℝ} (hN : 0 < N) (hb : HasX qb Dim.pressure .pinf reg.id) :
    ∃ q, Bolt.tensileAreaX reg qb (ofQ ⟨bd, PUnit.inch, reg.id⟩) (ofQ ⟨es, PUnit.inch, reg.id⟩)
        (ofQ ⟨N, PUnit.perInch, reg.id⟩) = .ok (ofQ q) ∧
      HasVal q Dim.area (Bolt.tensileVal (100000 * psiPa) (bd * 0.0254) (es * 0.0254) (N / 0.0254)) reg.id := by
  have hs : HasVal (⟨100000, PUnit.psi, reg.id⟩ : Quantity) Dim.pressure (100000 * psiPa) reg.id :=
    lit_spec 100000 PUnit.psi reg.id rfl
  obtain ⟨q, e, h⟩ := Bolt.tensileArea_eval hs (Bolt.inch_val bd reg.id) (Bolt.inch_val es reg.id)
    (Bolt.perInch_val N reg.id) (by positivity)
  refine ⟨q, ?_, h⟩
  have h1 : qb.lt ⟨.fin 100000, PUnit.psi, reg.id⟩ = .ok false := hb.lt (.ofQ hs)
  have h2 : (ofQ ⟨100000, PUnit.psi, reg.id⟩).lt ⟨.fin 100000, PUnit.psi, reg.id⟩ = .ok false :=
    ((HasX.ofQ hs).lt (.ofQ hs)).trans (by simp)
  have h3 := tensileArea_agreesX (reg := reg) ⟨100000, PUnit.psi, reg.id⟩ ⟨bd, PUnit.inch, reg.id⟩
    ⟨es, PUnit.inch, reg.id⟩ ⟨N, PUnit.perInch, reg.id⟩
  rw [e, map_ok'] at h3
  rw [← h3]
  simp only [Bolt.tensileAreaX, h1, h2, ok_bind]

/-- The minimum engagement from the tensile area and the strength ratio `J`. -/
private theorem minEng_eval {qA : Quantity} {A : ℝ} {qj : QX} {j : Xf} (hs : Bolt.Sound t)
    (hA : HasVal qA Dim.area A reg.id) (hj : HasX qj Dim.one j reg.id) :
    ∃ c, Bolt.minEngagementX (ofQ qA) (ofQ ⟨t.minorMaxInt / 10000, PUnit.inch, reg.id⟩)
      (ofQ ⟨t.pitchMinExt / 10000, PUnit.inch, reg.id⟩) (ofQ ⟨t.tpi, PUnit.perInch, reg.id⟩) qj = .ok c ∧
      ∃ k : ℝ, (0 < A → 0 < k) ∧ HasX c Dim.length ((Xf.fin k).mul j) reg.id := by
  have vn := Bolt.perInch_val (t.tpi : ℝ) reg.id
  have vk := Bolt.inch_val (t.minorMaxInt / 10000) reg.id
  have ve := Bolt.inch_val (t.pitchMinExt / 10000) reg.id
  obtain ⟨c1, f1, g1, -⟩ := scale_spec 2 hA
  obtain ⟨c2, f2, g2, -⟩ := scale_spec Real.pi vk
  obtain ⟨c3, f3, g3, -⟩ := scale_spec 0.57735 vn
  obtain ⟨c4, f4, g4, -⟩ := sub_spec ve vk
  obtain ⟨c5, f5, g5⟩ := mul_spec g3 g4
  obtain ⟨c6, f6, g6⟩ := addNum_spec (1 / 2) (g5.cast (e := Dim.one) (by dims) rfl)
  obtain ⟨c7, f7, g7⟩ := mul_spec g2 g6
  have hden : 0 < Real.pi * (t.minorMaxInt / 10000 * 0.0254 : ℝ) * (1 / 2 + 0.57735 * (t.tpi / 0.0254 : ℝ) *
      (t.pitchMinExt / 10000 * 0.0254 - t.minorMaxInt / 10000 * 0.0254)) := by
    have h1 := hs.gs
    have h2 := hs.kn
    have h3 := Real.pi_pos
    have : 1 / 2 + 0.57735 * (t.tpi / 0.0254 : ℝ) * (t.pitchMinExt / 10000 * 0.0254 - t.minorMaxInt / 10000 * 0.0254) =
        1 / 2 + 0.57735 * (t.tpi : ℝ) * (t.pitchMinExt / 10000 - t.minorMaxInt / 10000) := by field_simp
    rw [this]; positivity
  obtain ⟨c8, f8, g8⟩ := div_spec g1 g7 hden.ne'
  obtain ⟨c9, f9, g9⟩ := (HasX.ofQ g8).mul hj
  refine ⟨c9, ?_, _, fun hA => div_pos (mul_pos two_pos hA) hden, g9.cast (by dims) rfl⟩
  simp only [Bolt.minEngagementX, ofQ_scale, ofQ_sub, ofQ_mul, ofQ_addNum, ofQ_div, bind_map', f1, f2, f3, f4, f5, f6,
    f7, f8, f9, ok_bind]

section Areas
variable {qb qp qL : Quantity} {sb sp L : ℝ} {u : PUnit} {r : ℕ}

private theorem inf_has {d : Dim} (hu : u.dim = d) (ho : u.offset = 0) : HasX ⟨.pinf, u, r⟩ d .pinf r :=
  ⟨hu, ho, rfl, rfl⟩

private theorem num_psi (hu : u.dim = Dim.pressure) (ho : u.offset = 0) (y : ℝ) :
    Bolt.IsPsi ⟨y, u, r⟩ (y * (u.scale / psiPa)) := by
  have ps : psiPa ≠ 0 := PUnit.psi.pos.ne'
  refine ⟨r, hu, ho, ?_, rfl⟩
  show y * u.scale = _
  field_simp

private theorem num_inch (hu : u.dim = Dim.length) (ho : u.offset = 0) (y : ℝ) :
    Bolt.IsInch ⟨y, u, r⟩ (y * (u.scale / 0.0254)) := by
  refine ⟨r, hu, ho, ?_, rfl⟩
  show y * u.scale = _
  field_simp

private theorem psi_scale : 0 < u.scale / psiPa := div_pos u.pos PUnit.psi.pos
private theorem inch_scale : 0 < u.scale / 0.0254 := div_pos u.pos (by norm_num)

/-- C121: for an infinite engagement length the plate area is infinite and the screw area the tensile area, with no
warning: the limits.  The minimum engagement is NaN. -/
theorem C121_areas_length (ht : Bolt.Tabulated size cls t) (hb : Bolt.IsPsi qb sb) (hp : Bolt.IsPsi qp sp)
    (sb0 : 0 ≤ sb) (sp0 : 0 < sp) (hu : u.dim = Dim.length) (ho : u.offset = 0) :
    (∃ a, Bolt.stressAreasX reg size cls (.quantity (ofQ qb)) (.quantity (ofQ qp)) (.quantity ⟨.pinf, u, r⟩) = .ok a ∧
      HasX a.plate Dim.area .pinf reg.id ∧ HasX a.screw Dim.area (.fin (t.tensile sb * 0.0254 ^ 2)) reg.id ∧
      HasX a.minEngagement Dim.length .nan reg.id ∧ a.warned = false) ∧
    LimitAt (fun y => (Bolt.stressAreas reg size cls (.quantity qb) (.quantity qp) (.quantity ⟨y, u, r⟩)).map
      (·.plate.phys)) .pinf ∧
    LimitAt (fun y => (Bolt.stressAreas reg size cls (.quantity qb) (.quantity qp) (.quantity ⟨y, u, r⟩)).map
      (·.screw.phys)) (.fin (t.tensile sb * 0.0254 ^ 2)) := by
  have hs := ht.sound
  have hn : (0 : ℝ) < t.tpi := by exact_mod_cast hs.n
  refine ⟨?_, ?_, ?_⟩
  · obtain ⟨r1, hb⟩ := hb
    obtain ⟨r2, hp⟩ := hp
    have ps : 0 < psiPa := PUnit.psi.pos
    have hl := ht.lookup
    have vsb := Bolt.rereg_val reg hb
    have vsp := Bolt.rereg_val reg hp
    have vl := rereg_hasX reg (inf_has (r := r) hu ho)
    obtain ⟨qA, eA, hA⟩ := Bolt.tensileArea_eval vsb (Bolt.inch_val (t.basic / 10000) reg.id)
      (Bolt.inch_val (t.pitchMinExt / 10000) reg.id) (Bolt.perInch_val (t.tpi : ℝ) reg.id) (by positivity)
    obtain ⟨qS, eS, vS⟩ := shear_inf hn hs.kn hs.gs vl
    obtain ⟨qP, eP, vP⟩ := shear_inf hn hs.ds hs.gp vl
    have hcmp := vS.lt (.ofQ hA)
    obtain ⟨q1, e1, h1⟩ := vS.mul (.ofQ vsb)
    obtain ⟨q2, e2, h2⟩ := vP.mul (.ofQ vsp)
    rw [Xf.pinf_mul (by positivity)] at h2
    obtain ⟨q3, e3, h3⟩ := h1.div h2 (by simp)
    have h3' : HasX q3 Dim.one .nan reg.id := by
      refine h3.cast (by dims) ?_
      rcases sb0.eq_or_lt with h | h
      · rw [← h]; simp
      · rw [Xf.pinf_mul (by positivity)]; simp
    obtain ⟨c9, hm, k, -, h9⟩ := minEng_eval hs hA h3'
    rw [Xf.mul_nan] at h9
    have x1 := checkedX_has lookup_pressure (.ofQ hb) (.inr ⟨_, by positivity, rfl⟩)
    have x2 := checkedX_has lookup_pressure (.ofQ hp) (.inr ⟨_, by positivity, rfl⟩)
    have x3 := checkedX_has lookup_length (inf_has (r := r) hu ho) (.inl rfl)
    have hr : ∀ q, Bolt.reregX reg (ofQ q) = ofQ (Bolt.rereg reg q) := fun _ => rfl
    refine ⟨⟨qP, ofQ qA, c9, false⟩, ?_, vP, (HasX.ofQ hA).cast rfl (by rw [Bolt.tensile_eq hs]), h9, rfl⟩
    have hc : qS.lt (ofQ qA) = .ok false := hcmp
    simp only [Bolt.stressAreasX, x1, x2, x3, ok_bind, hl.kn, hl.es, hl.en, hl.ds, hl.bd, hl.n, mk_fin, hr,
      tensileArea_agreesX, eA, map_ok', eS, hc, eP, e1, e2, e3, hm, Bool.false_eq_true, if_false]
  · have hline := line0 (inch_scale (u := u))
    refine limit_pinf (g := fun y => t.plate 1 * 0.0254 ^ 2 * (y * (u.scale / 0.0254))) ?_ ?_
    · filter_upwards [hline.eventually_gt_atTop 0] with y hy
      obtain ⟨a, e, h1, -⟩ := Bolt.areas_spec (reg := reg) ht hb hp (num_inch (r := r) hu ho y) sb0 sp0 hy
      rw [e, map_ok', h1.phys]
      have := Bolt.Thread.plate_scale t (y * (u.scale / 0.0254)) 1
      rw [mul_one] at this
      rw [this]; congr 1; ring
    · exact hline.const_mul_atTop (by have := hs.plate_pos one_pos; positivity)
  · have hline := line0 (inch_scale (u := u))
    refine limit_fin (g := fun y => t.tensile sb * 0.0254 ^ 2) ?_ tendsto_const_nhds
    filter_upwards [hline.eventually_gt_atTop 0, (hline.const_mul_atTop (hs.shear_pos one_pos)).eventually_ge_atTop
      (t.tensile sb)] with y hy h2
    obtain ⟨a, e, -, h1, -⟩ := Bolt.areas_spec (reg := reg) ht hb hp (num_inch (r := r) hu ho y) sb0 sp0 hy
    rw [e, map_ok', h1.phys]
    have := Bolt.Thread.shear_scale t (y * (u.scale / 0.0254)) 1
    rw [mul_one] at this
    rw [min_eq_right (by rw [this, mul_comm]; exact h2)]

/-- C121: for an infinitely strong bolt the areas are those of every bolt of at least 100 000 psi and the minimum
engagement is infinite: the limits. -/
theorem C121_areas_bolt (ht : Bolt.Tabulated size cls t) (hp : Bolt.IsPsi qp sp) (hL : Bolt.IsInch qL L)
    (sp0 : 0 < sp) (L0 : 0 < L) (hu : u.dim = Dim.pressure) (ho : u.offset = 0) :
    (∃ a, Bolt.stressAreasX reg size cls (.quantity ⟨.pinf, u, r⟩) (.quantity (ofQ qp)) (.quantity (ofQ qL)) = .ok a ∧
      HasX a.plate Dim.area (.fin (t.plate L * 0.0254 ^ 2)) reg.id ∧
      HasX a.screw Dim.area (.fin (min (t.shear L) (t.tensile 100000) * 0.0254 ^ 2)) reg.id ∧
      HasX a.minEngagement Dim.length .pinf reg.id ∧ (a.warned = true ↔ t.shear L < t.tensile 100000)) ∧
    (∀ y, 100000 ≤ y * (u.scale / psiPa) → ∃ a, Bolt.stressAreas reg size cls (.quantity ⟨y, u, r⟩) (.quantity qp)
      (.quantity qL) = .ok a ∧ a.plate.phys = t.plate L * 0.0254 ^ 2 ∧
      a.screw.phys = min (t.shear L) (t.tensile 100000) * 0.0254 ^ 2 ∧
      (a.warned = true ↔ t.shear L < t.tensile 100000)) ∧
    LimitAt (fun y => (Bolt.stressAreas reg size cls (.quantity ⟨y, u, r⟩) (.quantity qp) (.quantity qL)).map
      (·.minEngagement.phys)) .pinf := by
  have hs := ht.sound
  have hn : (0 : ℝ) < t.tpi := by exact_mod_cast hs.n
  have ten : ∀ {y : ℝ}, 100000 ≤ y → t.tensile y = t.tensile 100000 := by
    intro y hy
    unfold Bolt.Thread.tensile
    rw [if_neg (not_lt.mpr hy), if_neg (lt_irrefl _)]
  refine ⟨?_, ?_, ?_⟩
  · obtain ⟨r2, hp⟩ := hp
    obtain ⟨r3, hL⟩ := hL
    have ps : 0 < psiPa := PUnit.psi.pos
    have hl := ht.lookup
    have vsb := rereg_hasX reg (inf_has (r := r) hu ho)
    have vsp := Bolt.rereg_val reg hp
    have vL := Bolt.rereg_val reg hL
    have n0 : (t.tpi / 0.0254 : ℝ) ≠ 0 := by positivity
    obtain ⟨qA, eA, hA⟩ := tensile_inf (bd := t.basic / 10000) (es := t.pitchMinExt / 10000) hn vsb
    rw [Bolt.tensile_eq hs] at hA
    obtain ⟨qS, eS, vS⟩ := Bolt.shearArea_eval (Bolt.perInch_val t.tpi reg.id) vL
      (Bolt.inch_val (t.minorMaxInt / 10000) reg.id) (Bolt.inch_val (t.pitchMinExt / 10000) reg.id)
      (Bolt.inch_val (t.minorMaxInt / 10000) reg.id) n0
    obtain ⟨qP, eP, vP⟩ := Bolt.shearArea_eval (Bolt.perInch_val t.tpi reg.id) vL
      (Bolt.inch_val (t.majorMinExt / 10000) reg.id) (Bolt.inch_val (t.majorMinExt / 10000) reg.id)
      (Bolt.inch_val (t.pitchMaxInt / 10000) reg.id) n0
    have vS := vS.cast rfl (show _ = t.shear L * 0.0254 ^ 2 by unfold Bolt.Thread.shear; field_simp)
    have vP := vP.cast rfl (show _ = t.plate L * 0.0254 ^ 2 by unfold Bolt.Thread.plate; field_simp)
    have S0 := hs.shear_pos L0
    have P0 := hs.plate_pos L0
    have T0 := hs.tensile_pos 100000
    have hcmp := lt_spec vS hA
    obtain ⟨q1, e1, h1⟩ := (HasX.ofQ vS).mul vsb
    rw [Xf.mul_pinf (by positivity)] at h1
    obtain ⟨q2, e2, h2⟩ := (HasX.ofQ vP).mul (.ofQ vsp)
    rw [Xf.mul_fin] at h2
    obtain ⟨q3, e3, h3⟩ := h1.div h2 (by rw [ne_eq, Xf.fin_inj]; positivity)
    rw [Xf.pinf_div (by positivity)] at h3
    obtain ⟨c9, hm, k, k0, h9⟩ := minEng_eval hs hA (h3.cast (by dims) rfl)
    rw [Xf.mul_pinf (k0 (by positivity))] at h9
    have x1 := checkedX_has lookup_pressure (inf_has (r := r) hu ho) (.inl rfl)
    have x2 := checkedX_has lookup_pressure (.ofQ hp) (.inr ⟨_, by positivity, rfl⟩)
    have x3 := checkedX_has lookup_length (.ofQ hL) (.inr ⟨_, by positivity, rfl⟩)
    have hr : ∀ q, Bolt.reregX reg (ofQ q) = ofQ (Bolt.rereg reg q) := fun _ => rfl
    have hc : (t.shear L * 0.0254 ^ 2 < t.tensile 100000 * 0.0254 ^ 2) ↔ t.shear L < t.tensile 100000 :=
      mul_lt_mul_iff_left₀ (by norm_num)
    refine ⟨⟨ofQ qP, if decide (t.shear L * 0.0254 ^ 2 < t.tensile 100000 * 0.0254 ^ 2) = true then ofQ qS else ofQ qA,
      c9, decide (t.shear L * 0.0254 ^ 2 < t.tensile 100000 * 0.0254 ^ 2)⟩, ?_, .ofQ vP, ?_, h9, ?_⟩
    · simp only [Bolt.stressAreasX, x1, x2, x3, ok_bind, hl.kn, hl.es, hl.en, hl.ds, hl.bd, hl.n, mk_fin, hr,
        shearArea_agreesX, eA, map_ok', eS, ofQ_lt, hcmp, eP, e1, e2, e3, hm]
    · by_cases h : t.shear L < t.tensile 100000
      · simp only [hc.mpr h, decide_true, if_true]
        rw [min_eq_left h.le]; exact .ofQ vS
      · simp only [mt hc.mp h, decide_false, Bool.false_eq_true, if_false]
        rw [min_eq_right (not_lt.mp h)]; exact .ofQ hA
    · simp only [decide_eq_true_eq]; exact hc
  · intro y hy
    obtain ⟨a, e, h1, h2, -, h4⟩ := Bolt.areas_spec (reg := reg) ht (num_psi (r := r) hu ho y) hp hL
      (le_trans (by norm_num) hy) sp0 L0
    rw [ten hy] at h2 h4
    exact ⟨a, e, h1.phys, h2.phys, h4⟩
  · have hline := line0 (psi_scale (u := u))
    refine limit_pinf (g := fun y => 2 * t.tensile 100000 / sp / t.plate 1 * 0.0254 * (y * (u.scale / psiPa))) ?_ ?_
    · filter_upwards [hline.eventually_ge_atTop 100000] with y hy
      obtain ⟨a, e, -, -, h3, -⟩ := Bolt.areas_spec (reg := reg) ht (num_psi (r := r) hu ho y) hp hL
        (le_trans (by norm_num) hy) sp0 L0
      rw [e, map_ok', h3.phys, ten hy]
      congr 1; ring
    · have h1 := hs.plate_pos one_pos
      have h2 := hs.tensile_pos 100000
      exact hline.const_mul_atTop (by positivity)

/-- C121: for an infinitely strong plate the areas do not change and the minimum engagement is 0: the limit. -/
theorem C121_areas_plate (ht : Bolt.Tabulated size cls t) (hb : Bolt.IsPsi qb sb) (hL : Bolt.IsInch qL L)
    (sb0 : 0 ≤ sb) (L0 : 0 < L) (hu : u.dim = Dim.pressure) (ho : u.offset = 0) :
    (∃ a, Bolt.stressAreasX reg size cls (.quantity (ofQ qb)) (.quantity ⟨.pinf, u, r⟩) (.quantity (ofQ qL)) = .ok a ∧
      HasX a.plate Dim.area (.fin (t.plate L * 0.0254 ^ 2)) reg.id ∧
      HasX a.screw Dim.area (.fin (min (t.shear L) (t.tensile sb) * 0.0254 ^ 2)) reg.id ∧
      HasX a.minEngagement Dim.length (.fin 0) reg.id ∧ (a.warned = true ↔ t.shear L < t.tensile sb)) ∧
    (∀ y, 0 < y → ∃ a, Bolt.stressAreas reg size cls (.quantity qb) (.quantity ⟨y, u, r⟩) (.quantity qL) = .ok a ∧
      a.plate.phys = t.plate L * 0.0254 ^ 2 ∧ a.screw.phys = min (t.shear L) (t.tensile sb) * 0.0254 ^ 2 ∧
      (a.warned = true ↔ t.shear L < t.tensile sb)) ∧
    LimitAt (fun y => (Bolt.stressAreas reg size cls (.quantity qb) (.quantity ⟨y, u, r⟩) (.quantity qL)).map
      (·.minEngagement.phys)) (.fin 0) := by
  have hs := ht.sound
  have hn : (0 : ℝ) < t.tpi := by exact_mod_cast hs.n
  refine ⟨?_, ?_, ?_⟩
  · obtain ⟨r2, hb⟩ := hb
    obtain ⟨r3, hL⟩ := hL
    have ps : 0 < psiPa := PUnit.psi.pos
    have hl := ht.lookup
    have vsb := Bolt.rereg_val reg hb
    have vsp := rereg_hasX reg (inf_has (r := r) hu ho)
    have vL := Bolt.rereg_val reg hL
    have n0 : (t.tpi / 0.0254 : ℝ) ≠ 0 := by positivity
    obtain ⟨qA, eA, hA⟩ := Bolt.tensileArea_eval vsb (Bolt.inch_val (t.basic / 10000) reg.id)
      (Bolt.inch_val (t.pitchMinExt / 10000) reg.id) (Bolt.perInch_val (t.tpi : ℝ) reg.id) n0
    rw [Bolt.tensile_eq hs] at hA
    obtain ⟨qS, eS, vS⟩ := Bolt.shearArea_eval (Bolt.perInch_val t.tpi reg.id) vL
      (Bolt.inch_val (t.minorMaxInt / 10000) reg.id) (Bolt.inch_val (t.pitchMinExt / 10000) reg.id)
      (Bolt.inch_val (t.minorMaxInt / 10000) reg.id) n0
    obtain ⟨qP, eP, vP⟩ := Bolt.shearArea_eval (Bolt.perInch_val t.tpi reg.id) vL
      (Bolt.inch_val (t.majorMinExt / 10000) reg.id) (Bolt.inch_val (t.majorMinExt / 10000) reg.id)
      (Bolt.inch_val (t.pitchMaxInt / 10000) reg.id) n0
    have vS := vS.cast rfl (show _ = t.shear L * 0.0254 ^ 2 by unfold Bolt.Thread.shear; field_simp)
    have vP := vP.cast rfl (show _ = t.plate L * 0.0254 ^ 2 by unfold Bolt.Thread.plate; field_simp)
    have P0 := hs.plate_pos L0
    have hcmp := lt_spec vS hA
    obtain ⟨q1, e1, h1⟩ := (HasX.ofQ vS).mul (.ofQ vsb)
    obtain ⟨q2, e2, h2⟩ := (HasX.ofQ vP).mul vsp
    rw [Xf.mul_pinf (by positivity)] at h2
    obtain ⟨q3, e3, h3⟩ := h1.div h2 (by simp)
    rw [Xf.mul_fin, Xf.div_pinf] at h3
    obtain ⟨c9, hm, k, k0, h9⟩ := minEng_eval hs hA (h3.cast (by dims) rfl)
    rw [Xf.mul_fin, mul_zero] at h9
    have x1 := checkedX_has lookup_pressure (.ofQ hb) (.inr ⟨_, by positivity, rfl⟩)
    have x2 := checkedX_has lookup_pressure (inf_has (r := r) hu ho) (.inl rfl)
    have x3 := checkedX_has lookup_length (.ofQ hL) (.inr ⟨_, by positivity, rfl⟩)
    have hr : ∀ q, Bolt.reregX reg (ofQ q) = ofQ (Bolt.rereg reg q) := fun _ => rfl
    have hc : (t.shear L * 0.0254 ^ 2 < t.tensile sb * 0.0254 ^ 2) ↔ t.shear L < t.tensile sb :=
      mul_lt_mul_iff_left₀ (by norm_num)
    refine ⟨⟨ofQ qP, if decide (t.shear L * 0.0254 ^ 2 < t.tensile sb * 0.0254 ^ 2) = true then ofQ qS else ofQ qA,
      c9, decide (t.shear L * 0.0254 ^ 2 < t.tensile sb * 0.0254 ^ 2)⟩, ?_, .ofQ vP, ?_, h9, ?_⟩
    · simp only [Bolt.stressAreasX, x1, x2, x3, ok_bind, hl.kn, hl.es, hl.en, hl.ds, hl.bd, hl.n, mk_fin, hr,
        tensileArea_agreesX, shearArea_agreesX, eA, map_ok', eS, ofQ_lt, hcmp, eP, e1, e2, e3, hm]
    · by_cases h : t.shear L < t.tensile sb
      · simp only [hc.mpr h, decide_true, if_true]
        rw [min_eq_left h.le]; exact .ofQ vS
      · simp only [mt hc.mp h, decide_false, Bool.false_eq_true, if_false]
        rw [min_eq_right (not_lt.mp h)]; exact .ofQ hA
    · simp only [decide_eq_true_eq]; exact hc
  · intro y hy
    obtain ⟨a, e, h1, h2, -, h4⟩ := Bolt.areas_spec (reg := reg) ht hb (num_psi (r := r) hu ho y) hL
      sb0 (mul_pos hy psi_scale) L0
    exact ⟨a, e, h1.phys, h2.phys, h4⟩
  · have hline := line0 (psi_scale (u := u))
    refine limit_fin (g := fun y => 2 * t.tensile sb * sb / t.plate 1 * 0.0254 / (y * (u.scale / psiPa))) ?_
      (hline.const_div_atTop _)
    filter_upwards [hline.eventually_gt_atTop 0] with y hy
    obtain ⟨a, e, -, -, h3, -⟩ := Bolt.areas_spec (reg := reg) ht hb (num_psi (r := r) hu ho y) hL sb0 hy L0
    rw [e, map_ok', h3.phys]
    congr 1; ring

/-- A 1/4-20 bolt of 80 ksi in a plate of 80 ksi, an infinite length in inches, an infinite strength in GPa. -/
example : Bolt.Tabulated "1/4-20" "2" Bolt.t1420 ∧ Bolt.IsPsi ⟨80000, PUnit.psi, 3⟩ 80000 ∧
    Bolt.IsInch ⟨1, PUnit.inch, 3⟩ 1 ∧ PUnit.inch.dim = Dim.length ∧ PUnit.inch.offset = 0 ∧
    PUnit.gigapascal.dim = Dim.pressure ∧ PUnit.gigapascal.offset = 0 :=
  ⟨Bolt.t1420_tabulated, ⟨3, rfl, rfl, rfl, rfl⟩, ⟨3, Bolt.inch_val 1 3⟩, rfl, rfl, rfl, rfl⟩

end Areas

section Safety
variable {xP xA xb xp xL : QIn} {P A sb sp L n : ℝ}

private theorem argFin {xq : QIn} {kind : String} {d : Dim} {v : ℝ} (hk : supportedDims.lookup kind = some d)
    (h : DenotesM reg xq d v) (v0 : 0 ≤ v) :
    ∃ q, parseX (.ofQIn xq) reg = .ok (ofQ q) ∧ checkX (ofQ q) kind true = .ok () ∧ HasVal q d v reg.id := by
  obtain ⟨q, e, hv⟩ := parse_spec h
  exact ⟨q, by rw [ofQIn_parseX, e]; rfl, checkX_has hk (.ofQ hv) (.inr ⟨v, v0, rfl⟩), hv⟩

private theorem argInf {kind : String} {d : Dim} (hk : supportedDims.lookup kind = some d)
    (h : DenotesX reg x d .pinf) (hn : x.NoOffset reg) :
    ∃ u : PUnit, parseX x reg = .ok ⟨.pinf, u, reg.id⟩ ∧ checkX ⟨.pinf, u, reg.id⟩ kind true = .ok () ∧ u.dim = d ∧
      u.offset = 0 := by
  obtain ⟨⟨m, u, r⟩, e, hc, hd, ho, hv, hr⟩ := parseX_inf hk h hn
  have hm : m = .pinf := by dsimp at hv; cases m <;> simp_all [Xf.affine]
  subst hm
  cases hr
  exact ⟨u, e, hc, hd, ho⟩

/-- The safety factors from the parsed arguments and the areas. -/
private theorem safety_main {zP zA zb zp zL : XIn} {qP qA qb qp qL : QX} {p a b s S Q f : Xf} {n : Xf} {ar : Bolt.AreasX}
    (eP : parseX zP reg = .ok qP) (eA : parseX zA reg = .ok qA) (eb : parseX zb reg = .ok qb)
    (ep : parseX zp reg = .ok qp) (eL : parseX zL reg = .ok qL)
    (cP : checkX qP "pressure" true = .ok ()) (cA : checkX qA "area" true = .ok ())
    (cb : checkX qb "pressure" true = .ok ()) (cp : checkX qp "pressure" true = .ok ())
    (cL : checkX qL "length" true = .ok ())
    (vP : HasX qP Dim.pressure p reg.id) (vA : HasX qA Dim.area a reg.id) (vb : HasX qb Dim.pressure b reg.id)
    (vp : HasX qp Dim.pressure s reg.id)
    (e : Bolt.stressAreasX reg size cls (.quantity qb) (.quantity qp) (.quantity qL) = .ok ar)
    (hS : HasX ar.screw Dim.area S reg.id) (hQ : HasX ar.plate Dim.area Q reg.id)
    (n0 : n ≠ .fin 0) (hf : ((p.sub (.fin 101325)).mul a).div n = f) (S0 : S ≠ .fin 0) (Q0 : Q ≠ .fin 0) :
    (f.div S ≠ .fin 0 → f.div Q ≠ .fin 0 → Bolt.safetyFactorsX reg zP zA n size cls zb zp zL =
      .ok (b.div (f.div S), s.div (f.div Q))) ∧
    (f.div S = .fin 0 ∨ f.div Q = .fin 0 → Bolt.safetyFactorsX reg zP zA n size cls zb zp zL =
      .error .zeroDivision) := by
  obtain ⟨c1, e1, v1⟩ := vP.sub (HasX.ofQ ((lit_spec 1 PUnit.atm reg.id rfl).cast (w := 101325) rfl
    (by norm_num [PUnit.atm])))
  obtain ⟨c2, e2, v2⟩ := v1.mul vA
  obtain ⟨c3, e3, v3⟩ := v2.divNum n0
  rw [hf] at v3
  obtain ⟨c4, e4, v4⟩ := v3.div (rereg_hasX reg hS) S0
  obtain ⟨c7, e7, v7⟩ := v3.div (rereg_hasX reg hQ) Q0
  have e1' : qP.sub ⟨.fin 1, PUnit.atm, reg.id⟩ = .ok c1 := e1
  constructor
  · intro h1 h2
    obtain ⟨c5, e5, v5⟩ := vb.div v4 h1
    have e6 := (v5.cast (e := Dim.one) (by dims) rfl).toNumber
    obtain ⟨c8, e8, v8⟩ := vp.div v7 h2
    have e9 := (v8.cast (e := Dim.one) (by dims) rfl).toNumber
    simp only [Bolt.safetyFactorsX, eP, eA, eb, ep, eL, cP, cA, cb, cp, cL, ok_bind, e1', e2, e3, e, e4, e5, e6, e7, e8,
      e9]
  · intro h
    by_cases h1 : f.div S = .fin 0
    · rw [h1] at v4
      have e5 := vb.div_zero v4
      simp only [Bolt.safetyFactorsX, eP, eA, eb, ep, eL, cP, cA, cb, cp, cL, ok_bind, e1', e2, e3, e, e4, e5, err_bind]
    · have h2 := h.resolve_left h1
      rw [h2] at v7
      obtain ⟨c5, e5, v5⟩ := vb.div v4 h1
      have e6 := (v5.cast (e := Dim.one) (by dims) rfl).toNumber
      have e8 := vp.div_zero v7
      simp only [Bolt.safetyFactorsX, eP, eA, eb, ep, eL, cP, cA, cb, cp, cL, ok_bind, e1', e2, e3, e, e4, e5, e6, e7, e8,
        err_bind]

private theorem areasFin {qb qp qL : Quantity} (ht : Bolt.Tabulated size cls t) (hb : Bolt.IsPsi qb sb)
    (hp : Bolt.IsPsi qp sp) (hL : Bolt.IsInch qL L) (sb0 : 0 ≤ sb) (sp0 : 0 < sp) (L0 : 0 < L) :
    ∃ a, Bolt.stressAreasX reg size cls (.quantity (ofQ qb)) (.quantity (ofQ qp)) (.quantity (ofQ qL)) = .ok a ∧
      HasX a.screw Dim.area (.fin (min (t.shear L) (t.tensile sb) * 0.0254 ^ 2)) reg.id ∧
      HasX a.plate Dim.area (.fin (t.plate L * 0.0254 ^ 2)) reg.id := by
  obtain ⟨a, e, h1, h2, -, -⟩ := Bolt.areas_spec (reg := reg) ht hb hp hL sb0 sp0 L0
  have := C121_areas_agree (reg := reg) size cls (.quantity qb) (.quantity qp) (.quantity qL)
  rw [e] at this
  exact ⟨_, this, .ofQ h2, .ofQ h1⟩

/-- Finite area `S` of the screw and `Q` of the plate. -/
private theorem pos_areas (ht : Bolt.Tabulated size cls t) (sb : ℝ) (L0 : 0 < L) :
    0 < min (t.shear L) (t.tensile sb) * 0.0254 ^ 2 ∧ 0 < t.plate L * 0.0254 ^ 2 :=
  ⟨mul_pos (lt_min (ht.sound.shear_pos L0) (ht.sound.tensile_pos sb)) (by norm_num),
    mul_pos (ht.sound.plate_pos L0) (by norm_num)⟩

private theorem line_shift {s : ℝ} (hs : 0 < s) : Tendsto (fun y : ℝ => y * s - 101325) atTop atTop :=
  tendsto_atTop_add_const_right _ _ (line0 hs)

/-- C121: at an infinite pressure both safety factors are 0, the limits. -/
theorem C121_bolt_pressure (ht : Bolt.Tabulated size cls t) (hA : DenotesM reg xA Dim.area A)
    (hb : DenotesM reg xb Dim.pressure (sb * psiPa)) (hp : DenotesM reg xp Dim.pressure (sp * psiPa))
    (hL : DenotesM reg xL Dim.length (L * 0.0254)) (A0 : 0 < A) (sb0 : 0 ≤ sb) (sp0 : 0 < sp) (L0 : 0 < L) (n0 : 0 < n)
    (hx : DenotesX reg x Dim.pressure .pinf) (hn : x.NoOffset reg) :
    Bolt.safetyFactorsX reg x (.ofQIn xA) (.fin n) size cls (.ofQIn xb) (.ofQIn xp) (.ofQIn xL) =
      .ok (.fin 0, .fin 0) ∧
    LimitAt (fun y => (Bolt.safetyFactors reg (x.at y) xA n size cls xb xp xL).map Prod.fst) (.fin 0) ∧
    LimitAt (fun y => (Bolt.safetyFactors reg (x.at y) xA n size cls xb xp xL).map Prod.snd) (.fin 0) := by
  have ps : 0 < psiPa := PUnit.psi.pos
  obtain ⟨S0, Q0⟩ := pos_areas ht sb L0
  constructor
  · obtain ⟨u, eP, cP, du, ou⟩ := argInf lookup_pressure hx hn
    obtain ⟨qA, eA, cA, vA⟩ := argFin lookup_area hA A0.le
    obtain ⟨qb, eb, cb, vb⟩ := argFin lookup_pressure hb (by positivity)
    obtain ⟨qp, ep, cp, vp⟩ := argFin lookup_pressure hp (by positivity)
    obtain ⟨qL, eL, cL, vL⟩ := argFin lookup_length hL (by positivity)
    obtain ⟨ar, e, hS, hQ⟩ := areasFin (reg := reg) ht ⟨_, vb⟩ ⟨_, vp⟩ ⟨_, vL⟩ sb0 sp0 L0
    have key := (safety_main (f := .pinf) (n := .fin n) eP eA eb ep eL cP cA cb cp cL (inf_has du ou) (.ofQ vA) (.ofQ vb)
      (.ofQ vp) e hS hQ (by simpa using n0.ne') (by rw [Xf.pinf_sub, Xf.pinf_mul A0, Xf.pinf_div n0])
      (by simpa using S0.ne') (by simpa using Q0.ne')).1
    rw [Xf.pinf_div S0, Xf.pinf_div Q0] at key
    exact key (by simp) (by simp)
  · obtain ⟨s, hs, hd⟩ := at_denotesM hx hn
    have hline := line_shift hs
    have ev : ∀ᶠ y in atTop, _ := hline.eventually_gt_atTop 0
    constructor
    · refine limit_fin (g := fun y => (sb * psiPa) * (min (t.shear L) (t.tensile sb) * 0.0254 ^ 2) * n / A /
        (y * s - 101325)) ?_ (hline.const_div_atTop _)
      filter_upwards [ev] with y hy
      rw [Bolt.C24_safety_factors ht (hd y) hA hb hp hL (by linarith) (by linarith) A0 sb0 sp0 L0 n0.ne', map_ok']
      congr 1; dsimp; field_simp
    · refine limit_fin (g := fun y => (sp * psiPa) * (t.plate L * 0.0254 ^ 2) * n / A / (y * s - 101325)) ?_
        (hline.const_div_atTop _)
      filter_upwards [ev] with y hy
      rw [Bolt.C24_safety_factors ht (hd y) hA hb hp hL (by linarith) (by linarith) A0 sb0 sp0 L0 n0.ne', map_ok']
      congr 1; dsimp; field_simp

/-- C121: for an infinite window both safety factors are 0, the limits (NaN at exactly atmospheric pressure). -/
theorem C121_bolt_area (ht : Bolt.Tabulated size cls t) (hP : DenotesM reg xP Dim.pressure P)
    (hb : DenotesM reg xb Dim.pressure (sb * psiPa)) (hp : DenotesM reg xp Dim.pressure (sp * psiPa))
    (hL : DenotesM reg xL Dim.length (L * 0.0254)) (P0 : 0 ≤ P) (sb0 : 0 ≤ sb) (sp0 : 0 < sp) (L0 : 0 < L)
    (n0 : 0 < n) (hx : DenotesX reg x Dim.area .pinf) (hn : x.NoOffset reg) :
    (P ≠ 101325 →
      Bolt.safetyFactorsX reg (.ofQIn xP) x (.fin n) size cls (.ofQIn xb) (.ofQIn xp) (.ofQIn xL) =
        .ok (.fin 0, .fin 0) ∧
      LimitAt (fun y => (Bolt.safetyFactors reg xP (x.at y) n size cls xb xp xL).map Prod.fst) (.fin 0) ∧
      LimitAt (fun y => (Bolt.safetyFactors reg xP (x.at y) n size cls xb xp xL).map Prod.snd) (.fin 0)) ∧
    (P = 101325 → Bolt.safetyFactorsX reg (.ofQIn xP) x (.fin n) size cls (.ofQIn xb) (.ofQIn xp) (.ofQIn xL) =
      .ok (.nan, .nan)) := by
  have ps : 0 < psiPa := PUnit.psi.pos
  obtain ⟨S0, Q0⟩ := pos_areas ht sb L0
  obtain ⟨u, eA, cA, du, ou⟩ := argInf lookup_area hx hn
  obtain ⟨qP, eP, cP, vP⟩ := argFin lookup_pressure hP P0
  obtain ⟨qb, eb, cb, vb⟩ := argFin lookup_pressure hb (by positivity)
  obtain ⟨qp, ep, cp, vp⟩ := argFin lookup_pressure hp (by positivity)
  obtain ⟨qL, eL, cL, vL⟩ := argFin lookup_length hL (by positivity)
  obtain ⟨ar, e, hS, hQ⟩ := areasFin (reg := reg) ht ⟨_, vb⟩ ⟨_, vp⟩ ⟨_, vL⟩ sb0 sp0 L0
  have key := fun f hf => (safety_main (f := f) (n := .fin n) eP eA eb ep eL cP cA cb cp cL (.ofQ vP) (inf_has du ou)
    (.ofQ vb) (.ofQ vp) e hS hQ (by simpa using n0.ne') hf (by simpa using S0.ne') (by simpa using Q0.ne')).1
  refine ⟨fun hP1 => ⟨?_, ?_⟩, fun hP1 => ?_⟩
  · rcases lt_or_gt_of_ne hP1 with h | h
    · have := key .ninf (by rw [Xf.sub_fin, Xf.mul_pinf_neg (by linarith), Xf.ninf_div n0])
      rw [Xf.ninf_div S0, Xf.ninf_div Q0] at this
      exact this (by simp) (by simp)
    · have := key .pinf (by rw [Xf.sub_fin, Xf.mul_pinf (by linarith), Xf.pinf_div n0])
      rw [Xf.pinf_div S0, Xf.pinf_div Q0] at this
      exact this (by simp) (by simp)
  · obtain ⟨s, hs, hd⟩ := at_denotesM hx hn
    have hline := line0 hs
    have ev : ∀ᶠ y in atTop, _ := hline.eventually_gt_atTop 0
    have hP2 : P - 101325 ≠ 0 := sub_ne_zero.mpr hP1
    constructor
    · refine limit_fin (g := fun y => (sb * psiPa) * (min (t.shear L) (t.tensile sb) * 0.0254 ^ 2) * n / (P - 101325) /
        (y * s)) ?_ (hline.const_div_atTop _)
      filter_upwards [ev] with y hy
      rw [Bolt.C24_safety_factors ht hP (hd y) hb hp hL P0 hP1 hy sb0 sp0 L0 n0.ne', map_ok']
      congr 1; dsimp; rw [div_div]
    · refine limit_fin (g := fun y => (sp * psiPa) * (t.plate L * 0.0254 ^ 2) * n / (P - 101325) / (y * s)) ?_
        (hline.const_div_atTop _)
      filter_upwards [ev] with y hy
      rw [Bolt.C24_safety_factors ht hP (hd y) hb hp hL P0 hP1 hy sb0 sp0 L0 n0.ne', map_ok']
      congr 1; dsimp; rw [div_div]
  · have := key .nan (by rw [hP1]; simp)
    simpa using this

/-- C121: with infinitely many bolts, or an infinite engagement length, the call raises ZeroDivisionError. -/
theorem C121_bolt_count (ht : Bolt.Tabulated size cls t) (hP : DenotesM reg xP Dim.pressure P)
    (hA : DenotesM reg xA Dim.area A) (hb : DenotesM reg xb Dim.pressure (sb * psiPa))
    (hp : DenotesM reg xp Dim.pressure (sp * psiPa)) (P0 : 0 ≤ P) (A0 : 0 ≤ A) (sb0 : 0 ≤ sb)
    (sp0 : 0 < sp) :
    (∀ L, DenotesM reg xL Dim.length (L * 0.0254) → 0 < L →
      Bolt.safetyFactorsX reg (.ofQIn xP) (.ofQIn xA) .pinf size cls (.ofQIn xb) (.ofQIn xp) (.ofQIn xL) =
        .error .zeroDivision) ∧
    (∀ n, n ≠ 0 → DenotesX reg x Dim.length .pinf → x.NoOffset reg →
      Bolt.safetyFactorsX reg (.ofQIn xP) (.ofQIn xA) (.fin n) size cls (.ofQIn xb) (.ofQIn xp) x =
        .error .zeroDivision) := by
  have ps : 0 < psiPa := PUnit.psi.pos
  obtain ⟨qP, eP, cP, vP⟩ := argFin lookup_pressure hP P0
  obtain ⟨qA, eA, cA, vA⟩ := argFin lookup_area hA A0
  obtain ⟨qb, eb, cb, vb⟩ := argFin lookup_pressure hb (by positivity)
  obtain ⟨qp, ep, cp, vp⟩ := argFin lookup_pressure hp (by positivity)
  constructor
  · intro L hL L0
    obtain ⟨S0, Q0⟩ := pos_areas ht sb L0
    obtain ⟨qL, eL, cL, vL⟩ := argFin lookup_length hL (by positivity)
    obtain ⟨ar, e, hS, hQ⟩ := areasFin (reg := reg) ht ⟨_, vb⟩ ⟨_, vp⟩ ⟨_, vL⟩ sb0 sp0 L0
    exact (safety_main (f := .fin 0) (n := .pinf) eP eA eb ep eL cP cA cb cp cL (.ofQ vP) (.ofQ vA)
      (.ofQ vb) (.ofQ vp) e hS hQ (by simp) (by simp) (by simpa using S0.ne') (by simpa using Q0.ne')).2 (by simp)
  · intro n n0 hx hn
    obtain ⟨u, eL, cL, du, ou⟩ := argInf lookup_length hx hn
    obtain ⟨⟨ar, e, hQ, hS, -⟩, -⟩ := C121_areas_length (reg := reg) (r := reg.id) ht ⟨_, vb⟩ ⟨_, vp⟩ sb0 sp0 du ou
    have T0 := ht.sound.tensile_pos sb
    exact (safety_main (n := .fin n) eP eA eb ep eL cP cA cb cp cL (.ofQ vP) (.ofQ vA)
      (.ofQ vb) (.ofQ vp) e hS hQ (by simpa using n0) rfl (by rw [ne_eq, Xf.fin_inj]; positivity) (by simp)).2 (by simp)

/-- C121: an infinitely strong bolt has an infinite safety factor (above atmospheric pressure), the limit; the plate's
is that of every bolt. -/
theorem C121_bolt_strength (ht : Bolt.Tabulated size cls t) (hP : DenotesM reg xP Dim.pressure P)
    (hA : DenotesM reg xA Dim.area A) (hp : DenotesM reg xp Dim.pressure (sp * psiPa))
    (hL : DenotesM reg xL Dim.length (L * 0.0254)) (hP1 : 101325 < P) (A0 : 0 < A) (sp0 : 0 < sp) (L0 : 0 < L)
    (n0 : 0 < n) (hx : DenotesX reg x Dim.pressure .pinf) (hn : x.NoOffset reg) :
    ∃ v, Bolt.safetyFactorsX reg (.ofQIn xP) (.ofQIn xA) (.fin n) size cls x (.ofQIn xp) (.ofQIn xL) =
        .ok (.pinf, .fin v) ∧
      LimitAt (fun y => (Bolt.safetyFactors reg xP xA n size cls (x.at y) xp xL).map Prod.fst) .pinf ∧
      ∀ y ≥ 0, (Bolt.safetyFactors reg xP xA n size cls (x.at y) xp xL).map Prod.snd = .ok v := by
  have ps : 0 < psiPa := PUnit.psi.pos
  obtain ⟨S0, Q0⟩ := pos_areas ht 100000 L0
  have hd0 : 0 < (P - 101325) * A := mul_pos (by linarith) A0
  obtain ⟨s, hs, hd⟩ := at_denotesM hx hn
  have hd' : ∀ y, DenotesM reg (x.at y) Dim.pressure (y * (s / psiPa) * psiPa) := fun y => by
    have : y * (s / psiPa) * psiPa = y * s := by field_simp
    rw [this]; exact hd y
  refine ⟨(sp * psiPa) * (t.plate L * 0.0254 ^ 2) * n / ((P - 101325) * A), ?_, ?_, ?_⟩
  · obtain ⟨qP, eP, cP, vP⟩ := argFin lookup_pressure hP (by linarith)
    obtain ⟨qA, eA, cA, vA⟩ := argFin lookup_area hA A0.le
    obtain ⟨u, eb, cb, du, ou⟩ := argInf lookup_pressure hx hn
    obtain ⟨qp, ep, cp, vp⟩ := argFin lookup_pressure hp (by positivity)
    obtain ⟨qL, eL, cL, vL⟩ := argFin lookup_length hL (by positivity)
    obtain ⟨⟨ar, e, hQ, hS, -⟩, -⟩ := C121_areas_bolt (reg := reg) (r := reg.id) ht ⟨_, vp⟩ ⟨_, vL⟩ sp0 L0 du ou
    have f0 : 0 < (P - 101325) * A / n := by positivity
    have key := (safety_main (f := .fin ((P - 101325) * A / n)) (n := .fin n) eP eA eb ep eL cP cA cb cp cL (.ofQ vP)
      (.ofQ vA) (inf_has du ou) (.ofQ vp) e hS hQ (by simpa using n0.ne') (by simp) (by simpa using S0.ne')
      (by simpa using Q0.ne')).1
    rw [Xf.div_fin, Xf.div_fin, Xf.pinf_div (div_pos f0 S0), Xf.div_fin] at key
    rw [key (by rw [ne_eq, Xf.fin_inj]; exact (div_pos f0 S0).ne') (by rw [ne_eq, Xf.fin_inj]; exact (div_pos f0 Q0).ne')]
    congr 3
    have := ht.sound.plate_pos L0
    field_simp
  · have hline := line0 (div_pos hs ps)
    refine limit_pinf (g := fun y => psiPa * (min (t.shear L) (t.tensile 100000) * 0.0254 ^ 2) * n /
      ((P - 101325) * A) * (y * (s / psiPa))) ?_ (hline.const_mul_atTop (by positivity))
    filter_upwards [hline.eventually_ge_atTop 100000] with y hy
    rw [Bolt.C24_safety_factors ht hP hA (hd' y) hp hL (by linarith) hP1.ne' A0 (by linarith) sp0 L0 n0.ne', map_ok']
    have : t.tensile (y * (s / psiPa)) = t.tensile 100000 := by
      unfold Bolt.Thread.tensile
      rw [if_neg (not_lt.mpr hy), if_neg (lt_irrefl _)]
    rw [this]
    congr 1; dsimp; ring
  · intro y hy
    rw [Bolt.C24_safety_factors ht hP hA (hd' y) hp hL (by linarith) hP1.ne' A0 (by positivity) sp0 L0 n0.ne', map_ok']

/-- C121: an infinitely strong plate has an infinite safety factor (above atmospheric pressure), the limit; the bolt's
is that of every plate. -/
theorem C121_bolt_plate (ht : Bolt.Tabulated size cls t) (hP : DenotesM reg xP Dim.pressure P)
    (hA : DenotesM reg xA Dim.area A) (hb : DenotesM reg xb Dim.pressure (sb * psiPa))
    (hL : DenotesM reg xL Dim.length (L * 0.0254)) (hP1 : 101325 < P) (A0 : 0 < A) (sb0 : 0 ≤ sb) (L0 : 0 < L)
    (n0 : 0 < n) (hx : DenotesX reg x Dim.pressure .pinf) (hn : x.NoOffset reg) :
    ∃ v, Bolt.safetyFactorsX reg (.ofQIn xP) (.ofQIn xA) (.fin n) size cls (.ofQIn xb) x (.ofQIn xL) =
        .ok (.fin v, .pinf) ∧
      (∀ y > 0, (Bolt.safetyFactors reg xP xA n size cls xb (x.at y) xL).map Prod.fst = .ok v) ∧
      LimitAt (fun y => (Bolt.safetyFactors reg xP xA n size cls xb (x.at y) xL).map Prod.snd) .pinf := by
  have ps : 0 < psiPa := PUnit.psi.pos
  obtain ⟨S0, Q0⟩ := pos_areas ht sb L0
  have hd0 : 0 < (P - 101325) * A := mul_pos (by linarith) A0
  obtain ⟨s, hs, hd⟩ := at_denotesM hx hn
  have hd' : ∀ y, DenotesM reg (x.at y) Dim.pressure (y * (s / psiPa) * psiPa) := fun y => by
    have : y * (s / psiPa) * psiPa = y * s := by field_simp
    rw [this]; exact hd y
  refine ⟨(sb * psiPa) * (min (t.shear L) (t.tensile sb) * 0.0254 ^ 2) * n / ((P - 101325) * A), ?_, ?_, ?_⟩
  · obtain ⟨qP, eP, cP, vP⟩ := argFin lookup_pressure hP (by linarith)
    obtain ⟨qA, eA, cA, vA⟩ := argFin lookup_area hA A0.le
    obtain ⟨qb, eb, cb, vb⟩ := argFin lookup_pressure hb (by positivity)
    obtain ⟨u, ep, cp, du, ou⟩ := argInf lookup_pressure hx hn
    obtain ⟨qL, eL, cL, vL⟩ := argFin lookup_length hL (by positivity)
    obtain ⟨⟨ar, e, hQ, hS, -⟩, -⟩ := C121_areas_plate (reg := reg) (r := reg.id) ht ⟨_, vb⟩ ⟨_, vL⟩ sb0 L0 du ou
    have f0 : 0 < (P - 101325) * A / n := by positivity
    have key := (safety_main (f := .fin ((P - 101325) * A / n)) (n := .fin n) eP eA eb ep eL cP cA cb cp cL (.ofQ vP)
      (.ofQ vA) (.ofQ vb) (inf_has du ou) e hS hQ (by simpa using n0.ne') (by simp) (by simpa using S0.ne')
      (by simpa using Q0.ne')).1
    rw [Xf.div_fin, Xf.div_fin, Xf.pinf_div (div_pos f0 Q0), Xf.div_fin] at key
    rw [key (by rw [ne_eq, Xf.fin_inj]; exact (div_pos f0 S0).ne') (by rw [ne_eq, Xf.fin_inj]; exact (div_pos f0 Q0).ne')]
    congr 3
    have := lt_min (ht.sound.shear_pos L0) (ht.sound.tensile_pos sb)
    field_simp
  · intro y hy
    rw [Bolt.C24_safety_factors ht hP hA hb (hd' y) hL (by linarith) hP1.ne' A0 sb0 (mul_pos hy (div_pos hs ps)) L0
      n0.ne', map_ok']
  · have hline := line0 (div_pos hs ps)
    refine limit_pinf (g := fun y => psiPa * (t.plate L * 0.0254 ^ 2) * n /
      ((P - 101325) * A) * (y * (s / psiPa))) ?_ (hline.const_mul_atTop (by positivity))
    filter_upwards [hline.eventually_gt_atTop 0] with y hy
    rw [Bolt.C24_safety_factors ht hP hA hb (hd' y) hL (by linarith) hP1.ne' A0 sb0 hy L0 n0.ne', map_ok']
    congr 1; dsimp; ring

/-- An infinite pressure in bar, an infinite area and infinite lengths in SI units, as quantities: the conditions hold. -/
example : DenotesX reg (.quantity ⟨.pinf, PUnit.bar, 0⟩) Dim.pressure .pinf ∧
    (XIn.quantity ⟨.pinf, PUnit.bar, 0⟩).NoOffset reg ∧
    DenotesX reg (.quantity ⟨.pinf, PUnit.base Dim.area, 0⟩) Dim.area .pinf ∧
    (XIn.quantity ⟨.pinf, PUnit.base Dim.area, 0⟩).NoOffset reg ∧
    DenotesM reg (.quantity ⟨200000, PUnit.pascal, 7⟩) Dim.pressure 200000 ∧
    DenotesM reg (.quantity ⟨80000, PUnit.psi, 7⟩) Dim.pressure (80000 * psiPa) := by
  refine ⟨⟨rfl, rfl⟩, rfl, ⟨rfl, rfl⟩, rfl, ⟨⟨rfl, ?_⟩, rfl⟩, ⟨⟨rfl, ?_⟩, rfl⟩⟩
  · norm_num [PUnit.pascal, PUnit.base]
  · show 80000 * PUnit.psi.scale + 0 = _; rw [add_zero]; rfl

end Safety

end Bolts
end Pypbomb
