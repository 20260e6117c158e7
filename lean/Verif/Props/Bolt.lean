/-
Properties C19-C26: class `Bolt` and the thread tables.
-/
import Verif.Lemmas.Bolt
import Verif.Lemmas.Table

namespace Pypbomb.Bolt
open Quantity

/-! ### Specification: Machinery's Handbook formulas, in inches -/

/-- The table entries that describe a thread pair, in 0.0001 inch, and its threads per inch. -/
structure Thread where
  basic : ℕ
  majorMinExt : ℕ
  pitchMinExt : ℕ
  minorMaxInt : ℕ
  pitchMaxInt : ℕ
  tpi : ℕ

/-- The tables have exactly one external row `(size, cls"A")` and one internal row `(size, cls"B")`,
with these entries (column order as in `Data.externalCols`, `Data.internalCols`), and `size` ends in
`-tpi`. -/
def Tabulated (size cls : String) (t : Thread) : Prop :=
  (∃ a b c, Data.externalRows.filter (fun r => r.1 = size ∧ r.2.1 = cls ++ "A") =
    [(size, cls ++ "A", [t.basic, t.majorMinExt, a, b, t.pitchMinExt, c])]) ∧
  (∃ a b c d, Data.internalRows.filter (fun r => r.1 = size ∧ r.2.1 = cls ++ "B") =
    [(size, cls ++ "B", [a, b, t.minorMaxInt, c, t.pitchMaxInt, d])]) ∧
  parseDigits (splitLast '-' size) = some t.tpi

/-- Screw tensile area in square inches for a bolt of strength `psi`. -/
noncomputable def Thread.tensile (t : Thread) (psi : ℝ) : ℝ :=
  if psi < 100000 then Real.pi / 4 * (t.basic / 10000 - 0.9742785 / t.tpi) ^ 2
  else Real.pi * (t.pitchMinExt / 10000 / 2 - 0.16238 / t.tpi) ^ 2

/-- Screw thread shear area in square inches for an engagement of `L` inches. -/
noncomputable def Thread.shear (t : Thread) (L : ℝ) : ℝ :=
  Real.pi * t.tpi * L * (t.minorMaxInt / 10000) *
    (1 / (2 * t.tpi) + 0.57735 * (t.pitchMinExt / 10000 - t.minorMaxInt / 10000))

/-- Plate (internal) thread shear area in square inches for an engagement of `L` inches. -/
noncomputable def Thread.plate (t : Thread) (L : ℝ) : ℝ :=
  Real.pi * t.tpi * L * (t.majorMinExt / 10000) *
    (1 / (2 * t.tpi) + 0.57735 * (t.majorMinExt / 10000 - t.pitchMaxInt / 10000))

/-- `q` is a strength of `x` psi (in any pressure unit of any registry). -/
def IsPsi (q : Quantity) (x : ℝ) : Prop := ∃ r, HasVal q Dim.pressure (x * psiPa) r
/-- `q` is a length of `x` inches (in any length unit of any registry). -/
def IsInch (q : Quantity) (x : ℝ) : Prop := ∃ r, HasVal q Dim.length (x * 0.0254) r
/-- `q` is an area of `x` square inches. -/
def IsSqInch (q : Quantity) (x : ℝ) : Prop := ∃ r, HasVal q Dim.area (x * 0.0254 ^ 2) r

variable {reg : Registry} {size cls : String} {t : Thread} {qb qp qL qL' : Quantity}
  {sb sp L L' : ℝ}

/-! ### From the table to the formulas -/

theorem get_of_filter {tb : Table} {prop size cls : String} {vals : List ℕ} {v : ℕ}
    (h : tb.rows.filter (fun r => r.1 = size ∧ r.2.1 = cls) = [(size, cls, vals)])
    (hv : (tb.cols.zip vals).lookup prop = some v) :
    tb.get prop size cls = .ok ((v : ℝ) / 10000) := by
  simp only [Table.get, Table.cells, h, List.filterMap_cons, List.filterMap_nil, hv]

theorem Tabulated.lookup (h : Tabulated size cls t) :
    Lookup size cls (t.minorMaxInt / 10000) (t.pitchMinExt / 10000) (t.pitchMaxInt / 10000)
      (t.majorMinExt / 10000) (t.basic / 10000) t.tpi := by
  obtain ⟨⟨a, b, c, he⟩, ⟨a', b', c', d', hi⟩, hn⟩ := h
  exact ⟨get_of_filter hi rfl, get_of_filter he rfl, get_of_filter hi rfl, get_of_filter he rfl,
    get_of_filter he rfl, hn⟩

/-- Geometry of every tabulated thread. -/
structure Sound (t : Thread) : Prop where
  n : 0 < t.tpi
  kn : (0 : ℝ) < t.minorMaxInt / 10000
  ds : (0 : ℝ) < t.majorMinExt / 10000
  gs : (0 : ℝ) < 1 / 2 + 0.57735 * t.tpi * (t.pitchMinExt / 10000 - t.minorMaxInt / 10000)
  gp : (0 : ℝ) < 1 / 2 + 0.57735 * t.tpi * (t.majorMinExt / 10000 - t.pitchMaxInt / 10000)
  t1 : (0 : ℝ) < t.basic / 10000 - 0.9742785 / t.tpi
  t2 : (0 : ℝ) < t.pitchMinExt / 10000 / 2 - 0.16238 / t.tpi

theorem Tabulated.sound (h : Tabulated size cls t) : Sound t := by
  obtain ⟨⟨a, b, c, he⟩, ⟨a', b', c', d', hi⟩, hn⟩ := h
  have me : (size, cls ++ "A", [t.basic, t.majorMinExt, a, b, t.pitchMinExt, c]) ∈
      Data.externalRows := (List.mem_filter.mp (he ▸ List.mem_singleton_self _)).1
  have mi : (size, cls ++ "B", [a', b', t.minorMaxInt, c', t.pitchMaxInt, d']) ∈
      Data.internalRows := (List.mem_filter.mp (hi ▸ List.mem_singleton_self _)).1
  obtain ⟨n, hn', hg⟩ := check_rows tables_geom me mi
  rw [hn] at hn'
  obtain rfl : t.tpi = n := Option.some.inj hn'
  simp only [geomOK, decide_eq_true_eq] at hg
  obtain ⟨h1, h2, h3, h4, h5, h6, h7, h8⟩ := hg
  have h1r : (0 : ℝ) < t.tpi := by exact_mod_cast h1
  have h2r : (0 : ℝ) < t.minorMaxInt := by exact_mod_cast h2
  have h3r : (0 : ℝ) < t.majorMinExt := by exact_mod_cast h3
  have h5r : (2 * 57735 * t.tpi * t.minorMaxInt : ℝ) < 10 ^ 9 + 2 * 57735 * t.tpi * t.pitchMinExt := by
    exact_mod_cast h5
  have h6r : (2 * 57735 * t.tpi * t.pitchMaxInt : ℝ) < 10 ^ 9 + 2 * 57735 * t.tpi * t.majorMinExt := by
    exact_mod_cast h6
  have h7r : (9742785 : ℝ) < t.basic * t.tpi * 1000 := by exact_mod_cast h7
  have h8r : (2 * 16238 : ℝ) < t.pitchMinExt * t.tpi * 10 := by exact_mod_cast h8
  refine ⟨h1, by positivity, by positivity, by linarith, by linarith, ?_, ?_⟩
  · rw [sub_pos, div_lt_div_iff₀ h1r (by norm_num)]; linarith
  · rw [sub_pos, div_div, div_lt_div_iff₀ h1r (by norm_num)]; linarith

theorem shear_eq (h : Sound t) (L : ℝ) :
    shearVal (L * 0.0254) (t.minorMaxInt / 10000) (t.pitchMinExt / 10000) t.tpi =
      t.shear L * 0.0254 ^ 2 := by
  have : (t.tpi : ℝ) ≠ 0 := by exact_mod_cast h.n.ne'
  unfold shearVal Thread.shear; field_simp

theorem plate_eq (h : Sound t) (L : ℝ) :
    plateVal (L * 0.0254) (t.majorMinExt / 10000) (t.pitchMaxInt / 10000) t.tpi =
      t.plate L * 0.0254 ^ 2 := by
  have : (t.tpi : ℝ) ≠ 0 := by exact_mod_cast h.n.ne'
  unfold plateVal Thread.plate; field_simp

theorem tensile_eq (h : Sound t) (sb : ℝ) :
    tensileVal (sb * psiPa) (t.basic / 10000 * 0.0254) (t.pitchMinExt / 10000 * 0.0254)
      (t.tpi / 0.0254) = t.tensile sb * 0.0254 ^ 2 := by
  have : (t.tpi : ℝ) ≠ 0 := by exact_mod_cast h.n.ne'
  unfold tensileVal Thread.tensile
  have : (sb * psiPa < 100000 * psiPa) ↔ sb < 100000 :=
    mul_lt_mul_iff_left₀ (show 0 < psiPa from PUnit.psi.pos)
  by_cases hc : sb < 100000
  · rw [if_pos (this.mpr hc), if_pos hc]; field_simp
  · rw [if_neg (mt this.mp hc), if_neg hc]; field_simp

theorem Sound.shear_pos (h : Sound t) (hL : 0 < L) : 0 < t.shear L := by
  have hn : (0 : ℝ) < t.tpi := by exact_mod_cast h.n
  have := shear_eq h L
  have hp : 0 < shearVal (L * 0.0254) (t.minorMaxInt / 10000) (t.pitchMinExt / 10000) t.tpi := by
    unfold shearVal
    have := h.kn; have := h.gs; have := Real.pi_pos
    positivity
  rw [this] at hp
  exact pos_of_mul_pos_left hp (by norm_num)

theorem Sound.plate_pos (h : Sound t) (hL : 0 < L) : 0 < t.plate L := by
  have hn : (0 : ℝ) < t.tpi := by exact_mod_cast h.n
  have := plate_eq h L
  have hp : 0 < plateVal (L * 0.0254) (t.majorMinExt / 10000) (t.pitchMaxInt / 10000) t.tpi := by
    unfold plateVal
    have := h.ds; have := h.gp; have := Real.pi_pos
    positivity
  rw [this] at hp
  exact pos_of_mul_pos_left hp (by norm_num)

theorem Sound.tensile_pos (h : Sound t) (sb : ℝ) : 0 < t.tensile sb := by
  unfold Thread.tensile
  have := h.t1; have := h.t2; have := Real.pi_pos
  split <;> positivity

theorem Thread.shear_scale (t : Thread) (k L : ℝ) : t.shear (k * L) = k * t.shear L := by
  unfold Thread.shear; ring

theorem Thread.plate_scale (t : Thread) (k L : ℝ) : t.plate (k * L) = k * t.plate L := by
  unfold Thread.plate; ring

/-- Everything `calculate_stress_areas` returns, in inches. -/
theorem areas_spec (ht : Tabulated size cls t) (hb : IsPsi qb sb) (hp : IsPsi qp sp)
    (hL : IsInch qL L) (sb0 : 0 ≤ sb) (sp0 : 0 < sp) (L0 : 0 < L) :
    ∃ a : Areas, stressAreas reg size cls (.quantity qb) (.quantity qp) (.quantity qL) = .ok a ∧
      HasVal a.plate Dim.area (t.plate L * 0.0254 ^ 2) reg.id ∧
      HasVal a.screw Dim.area (min (t.shear L) (t.tensile sb) * 0.0254 ^ 2) reg.id ∧
      HasVal a.minEngagement Dim.length
        (2 * t.tensile sb * (sb / sp) / t.plate 1 * 0.0254) reg.id ∧
      (a.warned = true ↔ t.shear L < t.tensile sb) := by
  obtain ⟨r1, hb⟩ := hb
  obtain ⟨r2, hp⟩ := hp
  obtain ⟨r3, hL⟩ := hL
  have hs := ht.sound
  have ps : 0 < psiPa := PUnit.psi.pos
  obtain ⟨a, e, h1, h2, h3, h4⟩ := stressAreas_eval (reg := reg) ht.lookup hb hp hL (by positivity)
    (by positivity) (by positivity) hs.n hs.kn.ne' hs.gs.ne' hs.ds.ne' hs.gp.ne'
  rw [shear_eq hs, tensile_eq hs] at h2 h3 h4
  rw [plate_eq hs] at h1 h3
  refine ⟨a, e, h1, h2.cast rfl ?_, h3.cast rfl ?_, ?_⟩
  · rw [min_mul_of_nonneg _ _ (by norm_num)]
  · have e1 : t.plate L = L * t.plate 1 := by rw [← Thread.plate_scale, mul_one]
    have e2 : t.shear L = L * t.shear 1 := by rw [← Thread.shear_scale, mul_one]
    have p1 := hs.plate_pos one_pos
    have hn : (t.tpi : ℝ) ≠ 0 := by exact_mod_cast hs.n.ne'
    have hg := hs.gs.ne'
    have hk := hs.kn.ne'
    have hpi := Real.pi_pos.ne'
    have e3 : t.shear 1 = Real.pi * (t.minorMaxInt / 10000) *
        (1 / 2 + 0.57735 * t.tpi * (t.pitchMinExt / 10000 - t.minorMaxInt / 10000)) := by
      unfold Thread.shear; field_simp
    rw [e1, e2, e3]
    set K : ℝ := t.minorMaxInt / 10000
    set G : ℝ := 1 / 2 + 0.57735 * t.tpi * (t.pitchMinExt / 10000 - K)
    have := ps.ne'
    field_simp
  · rw [h4, decide_eq_true_eq]
    exact mul_lt_mul_iff_left₀ (by norm_num)

/-! ### C19 -/

/-- C19: the returned screw area is the smaller of the shear and the tensile area, and the shear
warning is issued exactly when the shear area is strictly smaller. -/
theorem C19_screw_area_is_min (ht : Tabulated size cls t) (hb : IsPsi qb sb) (hp : IsPsi qp sp)
    (hL : IsInch qL L) (sb0 : 0 ≤ sb) (sp0 : 0 < sp) (L0 : 0 < L) :
    ∃ a : Areas, stressAreas reg size cls (.quantity qb) (.quantity qp) (.quantity qL) = .ok a ∧
      IsSqInch a.screw (min (t.shear L) (t.tensile sb)) ∧
      (a.warned = true ↔ t.shear L < t.tensile sb) := by
  obtain ⟨a, e, -, h2, -, h4⟩ := areas_spec (reg := reg) ht hb hp hL sb0 sp0 L0
  exact ⟨a, e, ⟨_, h2⟩, h4⟩

/-! ### C20 -/

/-- C20: no unit error occurs for valid inputs and the areas are the Handbook areas: the plate area is
the internal thread shear area, the screw area is the shear area when the warning is issued and the
tensile area (with the 100 000 psi threshold) otherwise; results are in the requested registry. -/
theorem C20_handbook_areas (ht : Tabulated size cls t) (hb : IsPsi qb sb) (hp : IsPsi qp sp)
    (hL : IsInch qL L) (sb0 : 0 ≤ sb) (sp0 : 0 < sp) (L0 : 0 < L) :
    ∃ a : Areas, stressAreas reg size cls (.quantity qb) (.quantity qp) (.quantity qL) = .ok a ∧
      a.plate.reg = reg.id ∧ a.screw.reg = reg.id ∧
      IsSqInch a.plate (t.plate L) ∧
      (a.warned = true → IsSqInch a.screw (t.shear L)) ∧
      (a.warned = false → sb < 100000 →
        IsSqInch a.screw (Real.pi / 4 * (t.basic / 10000 - 0.9742785 / t.tpi) ^ 2)) ∧
      (a.warned = false → 100000 ≤ sb →
        IsSqInch a.screw (Real.pi * (t.pitchMinExt / 10000 / 2 - 0.16238 / t.tpi) ^ 2)) := by
  obtain ⟨a, e, h1, h2, -, h4⟩ := areas_spec (reg := reg) ht hb hp hL sb0 sp0 L0
  refine ⟨a, e, h1.reg, h2.reg, ⟨_, h1⟩, ?_, ?_, ?_⟩
  · intro h
    rw [min_eq_left (h4.mp h).le] at h2
    exact ⟨_, h2⟩
  all_goals
    intro h hs
    have hn : ¬ t.shear L < t.tensile sb := fun hh => by rw [h4.mpr hh] at h; simp at h
    rw [min_eq_right (not_lt.mp hn), Thread.tensile] at h2
  · rw [if_pos hs] at h2; exact ⟨_, h2⟩
  · rw [if_neg (not_lt.mpr hs)] at h2; exact ⟨_, h2⟩

/-- C20: both thread shear areas are proportional to the engagement length. -/
theorem C20_shear_proportional {k : ℝ} (k0 : 0 < k) (ht : Tabulated size cls t) (hb : IsPsi qb sb)
    (hp : IsPsi qp sp) (hL : IsInch qL L) (hL' : IsInch qL' (k * L)) (sb0 : 0 ≤ sb) (sp0 : 0 < sp)
    (L0 : 0 < L) :
    ∃ a a' : Areas, stressAreas reg size cls (.quantity qb) (.quantity qp) (.quantity qL) = .ok a ∧
      stressAreas reg size cls (.quantity qb) (.quantity qp) (.quantity qL') = .ok a' ∧
      a'.plate.phys = k * a.plate.phys ∧
      (a.warned = true → a'.warned = true → a'.screw.phys = k * a.screw.phys) ∧
      (a.warned = false → a'.warned = false → a'.screw.phys = a.screw.phys) := by
  obtain ⟨a, e, h1, h2, -, h4⟩ := areas_spec (reg := reg) ht hb hp hL sb0 sp0 L0
  obtain ⟨a', e', h1', h2', -, h4'⟩ := areas_spec (reg := reg) ht hb hp hL' sb0 sp0 (mul_pos k0 L0)
  refine ⟨a, a', e, e', ?_, ?_, ?_⟩
  · rw [h1'.phys, h1.phys, Thread.plate_scale]; ring
  · intro w w'
    rw [h2'.phys, h2.phys, min_eq_left (h4.mp w).le, min_eq_left (h4'.mp w').le, Thread.shear_scale]
    ring
  · intro w w'
    have n1 : ¬ t.shear L < t.tensile sb := fun hh => by rw [h4.mpr hh] at w; simp at w
    have n2 : ¬ t.shear (k * L) < t.tensile sb := fun hh => by rw [h4'.mpr hh] at w'; simp at w'
    rw [h2'.phys, h2.phys, min_eq_right (not_lt.mp n1), min_eq_right (not_lt.mp n2)]

/-! ### C21 -/

/-- C21: the reported minimum engagement is the same for every engagement length supplied. -/
theorem C21_min_engagement_independent (ht : Tabulated size cls t) (hb : IsPsi qb sb)
    (hp : IsPsi qp sp) (hL : IsInch qL L) (hL' : IsInch qL' L') (sb0 : 0 ≤ sb) (sp0 : 0 < sp)
    (L0 : 0 < L) (L0' : 0 < L') :
    ∃ a a' : Areas, stressAreas reg size cls (.quantity qb) (.quantity qp) (.quantity qL) = .ok a ∧
      stressAreas reg size cls (.quantity qb) (.quantity qp) (.quantity qL') = .ok a' ∧
      a.minEngagement.unit.dim = Dim.length ∧ a'.minEngagement.unit.dim = Dim.length ∧
      a.minEngagement.phys = a'.minEngagement.phys := by
  obtain ⟨a, e, -, -, h3, -⟩ := areas_spec (reg := reg) ht hb hp hL sb0 sp0 L0
  obtain ⟨a', e', -, -, h3', -⟩ := areas_spec (reg := reg) ht hb hp hL' sb0 sp0 L0'
  exact ⟨a, a', e, e', h3.dim, h3'.dim, by rw [h3.phys, h3'.phys]⟩

/-- C21: at the reported minimum engagement the plate's shear capacity is exactly twice the bolt's
tensile capacity. -/
theorem C21_min_engagement_balances (ht : Tabulated size cls t) (hb : IsPsi qb sb)
    (hp : IsPsi qp sp) (hL : IsInch qL L) (sb0 : 0 < sb) (sp0 : 0 < sp) (L0 : 0 < L) :
    ∃ a m : Areas, stressAreas reg size cls (.quantity qb) (.quantity qp) (.quantity qL) = .ok a ∧
      stressAreas reg size cls (.quantity qb) (.quantity qp) (.quantity a.minEngagement) = .ok m ∧
      ∃ A, IsSqInch m.plate A ∧ A * sp = 2 * (t.tensile sb * sb) := by
  obtain ⟨a, e, -, -, h3, -⟩ := areas_spec (reg := reg) ht hb hp hL sb0.le sp0 L0
  have p1 := ht.sound.plate_pos one_pos
  have tp := ht.sound.tensile_pos sb
  have m0 : 0 < 2 * t.tensile sb * (sb / sp) / t.plate 1 := by positivity
  obtain ⟨m, em, hm, -, -, -⟩ := areas_spec (reg := reg) ht hb hp ⟨_, h3⟩ sb0.le sp0 m0
  refine ⟨a, m, e, em, _, ⟨_, hm⟩, ?_⟩
  have e1 : t.plate (2 * t.tensile sb * (sb / sp) / t.plate 1) =
      2 * t.tensile sb * (sb / sp) / t.plate 1 * t.plate 1 := by
    conv_lhs => rw [← mul_one (2 * t.tensile sb * (sb / sp) / t.plate 1)]
    rw [Thread.plate_scale]
  rw [e1]
  field_simp

/-! ### C22 -/

/-- C22, exactly: using the reported minimum engagement, the shear warning is issued if and only if
twice the screw's shear capacity per inch is below the plate's shear capacity per inch. -/
theorem C22_warning_at_min_engagement (ht : Tabulated size cls t) (hb : IsPsi qb sb)
    (hp : IsPsi qp sp) (hL : IsInch qL L) (sb0 : 0 < sb) (sp0 : 0 < sp) (L0 : 0 < L) :
    ∃ a m : Areas, stressAreas reg size cls (.quantity qb) (.quantity qp) (.quantity qL) = .ok a ∧
      stressAreas reg size cls (.quantity qb) (.quantity qp) (.quantity a.minEngagement) = .ok m ∧
      (m.warned = true ↔ 2 * (t.shear 1 * sb) < t.plate 1 * sp) := by
  obtain ⟨a, e, -, -, h3, -⟩ := areas_spec (reg := reg) ht hb hp hL sb0.le sp0 L0
  have p1 := ht.sound.plate_pos one_pos
  have tp := ht.sound.tensile_pos sb
  have m0 : 0 < 2 * t.tensile sb * (sb / sp) / t.plate 1 := by positivity
  obtain ⟨m, em, -, -, -, hw⟩ := areas_spec (reg := reg) ht hb hp ⟨_, h3⟩ sb0.le sp0 m0
  refine ⟨a, m, e, em, hw.trans ?_⟩
  have e1 : t.shear (2 * t.tensile sb * (sb / sp) / t.plate 1) =
      t.tensile sb * (2 * (t.shear 1 * sb) / (t.plate 1 * sp)) := by
    conv_lhs => rw [← mul_one (2 * t.tensile sb * (sb / sp) / t.plate 1)]
    rw [Thread.shear_scale]
    field_simp
  rw [e1, mul_lt_iff_lt_one_right tp, div_lt_one (by positivity)]

theorem Tabulated.strong (h : Tabulated size cls t) : t.plate 1 ≤ 2.08 * t.shear 1 := by
  have hs := h.sound
  obtain ⟨⟨a, b, c, he⟩, ⟨a', b', c', d', hi⟩, hn⟩ := h
  have me : (size, cls ++ "A", [t.basic, t.majorMinExt, a, b, t.pitchMinExt, c]) ∈
      Data.externalRows := (List.mem_filter.mp (he ▸ List.mem_singleton_self _)).1
  have mi : (size, cls ++ "B", [a', b', t.minorMaxInt, c', t.pitchMaxInt, d']) ∈
      Data.internalRows := (List.mem_filter.mp (hi ▸ List.mem_singleton_self _)).1
  obtain ⟨n, hn', hg⟩ := check_rows tables_strong me mi
  rw [hn] at hn'
  obtain rfl : t.tpi = n := Option.some.inj hn'
  simp only [strongOK, decide_eq_true_eq] at hg
  have hg' : (100 * (t.majorMinExt * (10 ^ 9 + 2 * 57735 * t.tpi * t.majorMinExt -
        2 * 57735 * t.tpi * t.pitchMaxInt)) : ℝ) ≤
      208 * (t.minorMaxInt * (10 ^ 9 + 2 * 57735 * t.tpi * t.pitchMinExt -
        2 * 57735 * t.tpi * t.minorMaxInt)) := by exact_mod_cast hg
  have hn0 : (t.tpi : ℝ) ≠ 0 := by exact_mod_cast hs.n.ne'
  have e1 : t.plate 1 = Real.pi * (t.majorMinExt * (10 ^ 9 + 2 * 57735 * t.tpi * t.majorMinExt -
        2 * 57735 * t.tpi * t.pitchMaxInt)) / (2 * 10 ^ 13) := by
    unfold Thread.plate; field_simp; ring
  have e2 : t.shear 1 = Real.pi * (t.minorMaxInt * (10 ^ 9 + 2 * 57735 * t.tpi * t.pitchMinExt -
        2 * 57735 * t.tpi * t.minorMaxInt)) / (2 * 10 ^ 13) := by
    unfold Thread.shear; field_simp; ring
  rw [e1, e2]
  have := mul_le_mul_of_nonneg_left hg' Real.pi_pos.le
  linarith

/-- C22, proved part: when the bolt is at least 4 % stronger than the plate, using the reported minimum
engagement never triggers the shear warning, for any tabulated thread. -/
theorem C22_no_warning_strong_bolt_partial (ht : Tabulated size cls t) (hb : IsPsi qb sb)
    (hp : IsPsi qp sp) (hL : IsInch qL L) (sp0 : 0 < sp) (hs : 1.04 * sp ≤ sb) (L0 : 0 < L) :
    ∃ a m : Areas, stressAreas reg size cls (.quantity qb) (.quantity qp) (.quantity qL) = .ok a ∧
      stressAreas reg size cls (.quantity qb) (.quantity qp) (.quantity a.minEngagement) = .ok m ∧
      m.warned = false := by
  have sb0 : 0 < sb := by linarith
  obtain ⟨a, m, e, em, hw⟩ := C22_warning_at_min_engagement (reg := reg) ht hb hp hL sb0 sp0 L0
  refine ⟨a, m, e, em, ?_⟩
  rw [Bool.eq_false_iff]
  intro h
  have h1 := hw.mp h
  have h2 := ht.strong
  have h3 := ht.sound.plate_pos one_pos
  have h4 := ht.sound.shear_pos one_pos
  nlinarith [mul_le_mul_of_nonneg_left hs h4.le, mul_le_mul_of_nonneg_right h2 sp0.le]

/-- The 0-80 class 2 thread. -/
def t080 : Thread := ⟨600, 595, 496, 514, 542, 80⟩

set_option maxRecDepth 100000 in
/-- Hypotheses of C19-C24 are met: the 0-80 class 2 thread. -/
theorem t080_tabulated : Tabulated "0-80" "2" t080 :=
  ⟨⟨563, 514, 442, by decide +kernel⟩, ⟨600, 465, 519, 600, by decide +kernel⟩, by decide +kernel⟩

/-- The 1/4-20 class 2 thread. -/
def t1420 : Thread := ⟨2500, 2489, 2127, 2070, 2248, 20⟩

set_option maxRecDepth 100000 in
/-- Hypotheses of C19-C24 are met: the 1/4-20 class 2 thread. -/
theorem t1420_tabulated : Tabulated "1/4-20" "2" t1420 :=
  ⟨⟨2408, 2164, 1876, by decide +kernel⟩, ⟨2500, 1960, 2175, 2500, by decide +kernel⟩,
    by decide +kernel⟩

/-- Hypotheses of C19-C24 are met: 80 000 psi and half an inch. -/
example : IsPsi ⟨80000, PUnit.psi, 3⟩ 80000 ∧ IsInch ⟨1 / 2, PUnit.inch, 4⟩ (1 / 2) :=
  ⟨⟨3, rfl, rfl, rfl, rfl⟩, ⟨4, rfl, rfl, by norm_num [PUnit.inch], rfl⟩⟩

/-- C22 as documented is false: a 0-80 screw in a plate of the same strength is reported to fail in
shear when engaged by exactly the returned "minimum engagement" — whatever that strength is. -/
theorem C22_violated (hb : IsPsi qb sb) (sb0 : 0 < sb) (hL : IsInch qL L) (L0 : 0 < L) :
    ∃ a m : Areas, stressAreas reg "0-80" "2" (.quantity qb) (.quantity qb) (.quantity qL) = .ok a ∧
      stressAreas reg "0-80" "2" (.quantity qb) (.quantity qb) (.quantity a.minEngagement) = .ok m ∧
      m.warned = true := by
  obtain ⟨a, m, e, em, hw⟩ := C22_warning_at_min_engagement (reg := reg) t080_tabulated hb hb hL
    sb0 sb0 L0
  refine ⟨a, m, e, em, hw.mpr ?_⟩
  have : 2 * t080.shear 1 < t080.plate 1 := by
    have e1 : t080.shear 1 = Real.pi * (133916789 / 6250000000) := by
      norm_num [Thread.shear, t080]; ring_nf
    have e2 : t080.plate 1 = Real.pi * (221576929 / 5000000000) := by
      norm_num [Thread.plate, t080]; ring_nf
    rw [e1, e2]
    have := Real.pi_pos
    nlinarith
  nlinarith

/-! ### C23 -/

/-- Exactly one row of the table has this size and class. -/
def OneRow (rows : List (String × String × List ℕ)) (size cls : String) : Prop :=
  ∃ vals, rows.filter (fun r => r.1 = size ∧ r.2.1 = cls) = [(size, cls, vals)]

/-- No row of the table has this size and class. -/
def NoRow (rows : List (String × String × List ℕ)) (size cls : String) : Prop :=
  ∀ vals, (size, cls, vals) ∉ rows

theorem tabulated_of_oneRow (he : OneRow Data.externalRows size (cls ++ "A"))
    (hi : OneRow Data.internalRows size (cls ++ "B")) : ∃ t, Tabulated size cls t := by
  obtain ⟨ev, he⟩ := he
  obtain ⟨iv, hi⟩ := hi
  have me := (List.mem_filter.mp (he ▸ List.mem_singleton_self _)).1
  have mi := (List.mem_filter.mp (hi ▸ List.mem_singleton_self _)).1
  obtain ⟨n, hn, hg⟩ := check_rows tables_geom me mi
  unfold geomOK at hg
  split at hg
  · rename_i bd ds a b es c d e kn f en g
    exact ⟨⟨bd, ds, es, kn, en, n⟩, ⟨a, b, c, he⟩, ⟨d, e, f, g, hi⟩, hn⟩
  · simp at hg

/-- C23, proved part: for every size and class with exactly one row in each table, all positive
strengths and every positive engagement, the call succeeds and all three results are positive. -/
theorem C23_tabulated_succeeds_partial (he : OneRow Data.externalRows size (cls ++ "A"))
    (hi : OneRow Data.internalRows size (cls ++ "B")) (hb : IsPsi qb sb) (hp : IsPsi qp sp)
    (hL : IsInch qL L) (sb0 : 0 < sb) (sp0 : 0 < sp) (L0 : 0 < L) :
    ∃ a : Areas, stressAreas reg size cls (.quantity qb) (.quantity qp) (.quantity qL) = .ok a ∧
      0 < a.plate.phys ∧ 0 < a.screw.phys ∧ 0 < a.minEngagement.phys := by
  obtain ⟨t, ht⟩ := tabulated_of_oneRow he hi
  obtain ⟨a, e, h1, h2, h3, -⟩ := areas_spec (reg := reg) ht hb hp hL sb0.le sp0 L0
  have hs := ht.sound
  have p1 := hs.plate_pos one_pos
  have pL := hs.plate_pos L0
  have sL := hs.shear_pos L0
  have tp := hs.tensile_pos sb
  refine ⟨a, e, ?_, ?_, ?_⟩
  · rw [h1.phys]; positivity
  · rw [h2.phys]; have := lt_min sL tp; positivity
  · rw [h3.phys]; positivity

/-- Every external row has exactly one internal partner except the nine sizes spelled differently, and
is unique except 2-6 2A. -/
def coverage : Bool :=
  Data.externalRows.all fun r =>
    decide (r.1 ∈ ["1-1/8-7", "1-1/8-12", "1-1/4-7", "1-1/4-12", "1-3/8-6", "1-3/8-12", "1-1/2-6",
      "1-1/2-12", "1-3/4-5"]) || decide (r.1 = "2-6") ||
    (decide ((Data.externalRows.filter fun e => e.1 = r.1 ∧ e.2.1 = r.2.1) = [r]) &&
     (decide (((Data.internalRows.filter fun i => i.1 = r.1 ∧
        i.2.1 = (if r.2.1 = "2A" then "2B" else "3B")).map fun i => (i.1, i.2.1)) =
          [(r.1, if r.2.1 = "2A" then "2B" else "3B")])))

set_option maxRecDepth 100000 in
theorem coverage_true : coverage = true := by decide +kernel

/-- The hypotheses of `C23_tabulated_succeeds_partial` hold for every external thread in the table
except the ten sizes listed. -/
theorem C23_coverage_partial {vals : List ℕ} (cls : String)
    (h : (size, cls ++ "A", vals) ∈ Data.externalRows)
    (h1 : size ∉ ["1-1/8-7", "1-1/8-12", "1-1/4-7", "1-1/4-12", "1-3/8-6", "1-3/8-12", "1-1/2-6",
      "1-1/2-12", "1-3/4-5"]) (h2 : size ≠ "2-6") :
    OneRow Data.externalRows size (cls ++ "A") ∧ OneRow Data.internalRows size (cls ++ "B") := by
  have hc := List.all_eq_true.mp extClassOK_true _ h
  rw [decide_eq_true_eq] at hc
  have h3 := List.all_eq_true.mp coverage_true _ h
  rw [decide_eq_false h1, decide_eq_false h2, Bool.false_or, Bool.false_or, Bool.and_eq_true,
    decide_eq_true_eq, decide_eq_true_eq] at h3
  refine ⟨⟨vals, h3.1⟩, ?_⟩
  have hB : (if cls ++ "A" = "2A" then "2B" else "3B") = cls ++ "B" := by
    rcases hc with hc | hc
    · have : cls = String.singleton '2' := append_cancel '2' "A" (hc.trans (by decide))
      subst this; decide
    · have : cls = String.singleton '3' := append_cancel '3' "A" (hc.trans (by decide))
      subst this; decide
  have h4 := h3.2
  simp only [hB] at h4
  obtain ⟨x, hx, hx'⟩ := List.map_eq_singleton_iff.mp h4
  obtain ⟨x1, x2, x3⟩ := x
  simp only [Prod.mk.injEq] at hx'
  obtain ⟨rfl, rfl⟩ := hx'
  exact ⟨x3, hx⟩

theorem get_noRow {tb : Table} {prop : String} (h : NoRow tb.rows size cls) :
    ∃ m, tb.get prop size cls = .error (.keyError m) := by
  refine ⟨size ++ cls, ?_⟩
  have : tb.rows.filter (fun r => decide (r.1 = size ∧ r.2.1 = cls)) = [] := by
    rw [List.filter_eq_nil_iff]
    rintro ⟨a, b, c⟩ hm hh
    rw [decide_eq_true_eq] at hh
    obtain ⟨rfl, rfl⟩ := hh
    exact h c hm
  simp only [Table.get, Table.cells, this, List.filterMap_nil]

theorem get_oneRow {tb : Table} {prop : String} {i : ℕ} (hi : tb.cols = Data.internalCols)
    (hp : tb.cols[i]? = some prop) (h6 : ∀ r ∈ tb.rows, r.2.2.length = 6)
    (h : OneRow tb.rows size cls) : ∃ v, tb.get prop size cls = .ok v := by
  obtain ⟨vals, h⟩ := h
  have hm := (List.mem_filter.mp (h ▸ List.mem_singleton_self _)).1
  have hl := h6 _ hm
  match vals, hl with
  | [a, b, c, d, e, f], _ =>
    have : ∃ v, (tb.cols.zip [a, b, c, d, e, f]).lookup prop = some v := by
      rw [hi] at hp ⊢
      have hmem : prop ∈ Data.internalCols := List.mem_of_getElem? hp
      simp only [Data.internalCols, List.mem_cons, List.not_mem_nil, or_false] at hmem
      rcases hmem with h | h | h | h | h | h <;> subst h <;> exact ⟨_, rfl⟩
    obtain ⟨v, hv⟩ := this
    exact ⟨_, get_of_filter h hv⟩

/-- C23: a size/class missing from the internal table, or from the external one, raises KeyError. -/
theorem C23_missing_row_keyError (hb : IsPsi qb sb) (hp : IsPsi qp sp)
    (hL : IsInch qL L) (sb0 : 0 ≤ sb) (sp0 : 0 ≤ sp) (L0 : 0 ≤ L)
    (h : NoRow Data.internalRows size (cls ++ "B") ∨
      OneRow Data.internalRows size (cls ++ "B") ∧ NoRow Data.externalRows size (cls ++ "A")) :
    ∃ m, stressAreas reg size cls (.quantity qb) (.quantity qp) (.quantity qL) =
      .error (.keyError m) := by
  obtain ⟨r1, hb⟩ := hb
  obtain ⟨r2, hp⟩ := hp
  obtain ⟨r3, hL⟩ := hL
  have ps : 0 < psiPa := PUnit.psi.pos
  have c1 := checkArg_ok lookup_pressure hb (by positivity)
  have c2 := checkArg_ok lookup_pressure hp (by positivity)
  have c3 := checkArg_ok lookup_length hL (by positivity)
  rcases h with h | ⟨h, h'⟩
  · obtain ⟨m, e⟩ := get_noRow (tb := internal) (prop := "minor diameter max") h
    exact ⟨m, by simp only [stressAreas, c1, c2, c3, ok_bind, e, err_bind]⟩
  · obtain ⟨v, e⟩ := get_oneRow (tb := internal) (prop := "minor diameter max") (i := 2) rfl rfl
      (by decide +kernel) h
    obtain ⟨m, e'⟩ := get_noRow (tb := external) (prop := "pitch diameter min") h'
    exact ⟨m, by simp only [stressAreas, c1, c2, c3, ok_bind, e, e', err_bind]⟩

theorem get_ok_oneRow {tb : Table} {prop : String} {v : ℝ} (hi : tb.cols = Data.internalCols ∨ tb.cols = Data.externalCols)
    (hp : prop ∈ tb.cols) (h6 : ∀ r ∈ tb.rows, r.2.2.length = 6) (h : tb.get prop size cls = .ok v) :
    OneRow tb.rows size cls := by
  have hv : ∀ r ∈ tb.rows.filter (fun r => decide (r.1 = size ∧ r.2.1 = cls)),
      ∃ n, (tb.cols.zip r.2.2).lookup prop = some n := by
    intro r hr
    have hl := h6 r (List.mem_filter.mp hr).1
    obtain ⟨a, b, l⟩ := r
    match l, hl with
    | [a, b, c, d, e, f], _ =>
      rcases hi with hi | hi <;> rw [hi] at hp ⊢ <;>
        simp only [Data.internalCols, Data.externalCols, List.mem_cons, List.not_mem_nil, or_false] at hp <;>
        rcases hp with h | h | h | h | h | h <;> subst h <;> exact ⟨_, rfl⟩
  unfold OneRow
  unfold Table.get Table.cells at h
  rcases hf : tb.rows.filter (fun r => decide (r.1 = size ∧ r.2.1 = cls)) with _ | ⟨x, _ | ⟨y, l⟩⟩
  · rw [hf] at h; simp at h
  · have hx := (List.mem_filter.mp (hf ▸ List.mem_singleton_self x : x ∈ tb.rows.filter _)).2
    rw [decide_eq_true_eq] at hx
    obtain ⟨a, b, c⟩ := x
    obtain ⟨rfl, rfl⟩ := hx
    exact ⟨c, hf⟩
  · rw [hf] at h hv
    obtain ⟨n, hn⟩ := hv x (by simp)
    obtain ⟨m, hm⟩ := hv y (by simp)
    simp [hn, hm] at h

/-- C23, exactly: for positive strengths and engagement the call returns if and only if each table has exactly one row of the
size and class, whatever the spelling. -/
theorem C23_returns_iff (hb : IsPsi qb sb) (hp : IsPsi qp sp) (hL : IsInch qL L) (sb0 : 0 < sb) (sp0 : 0 < sp) (L0 : 0 < L) :
    Returns (stressAreas reg size cls (.quantity qb) (.quantity qp) (.quantity qL)) ↔
      OneRow Data.externalRows size (cls ++ "A") ∧ OneRow Data.internalRows size (cls ++ "B") := by
  constructor
  · rintro ⟨a, h⟩
    simp only [stressAreas, bind_eq_ok] at h
    obtain ⟨_, -, _, -, _, -, kn, hk, es, he, -⟩ := h
    exact ⟨get_ok_oneRow (tb := external) (.inr rfl) (by decide) (by decide +kernel) he,
      get_ok_oneRow (tb := internal) (.inl rfl) (by decide) (by decide +kernel) hk⟩
  · rintro ⟨he, hi⟩
    obtain ⟨a, e, -⟩ := C23_tabulated_succeeds_partial (reg := reg) he hi hb hp hL sb0 sp0 L0
    exact ⟨a, e⟩

set_option maxRecDepth 100000 in
/-- C23 as stated is false: the documented example "1 1/2-6" (and the external spelling "1-1/2-6")
raises KeyError for all strengths and engagements, because the two tables spell the size differently. -/
theorem C23_violated (hb : IsPsi qb sb) (hp : IsPsi qp sp) (hL : IsInch qL L) (sb0 : 0 ≤ sb)
    (sp0 : 0 ≤ sp) (L0 : 0 ≤ L) :
    (∃ vals, ("1 1/2-6", "2B", vals) ∈ Data.internalRows) ∧
    (∃ m, stressAreas reg "1 1/2-6" "2" (.quantity qb) (.quantity qp) (.quantity qL) =
      .error (.keyError m)) ∧
    (∃ vals, ("1-1/2-6", "2A", vals) ∈ Data.externalRows) ∧
    (∃ m, stressAreas reg "1-1/2-6" "2" (.quantity qb) (.quantity qp) (.quantity qL) =
      .error (.keyError m)) := by
  have no : ∀ (rows : List (String × String × List ℕ)) (s c : String),
      (rows.filter fun r => r.1 = s ∧ r.2.1 = c) = [] → NoRow rows s c := by
    intro rows s c h vals hm
    have := List.filter_eq_nil_iff.mp h _ hm
    simp at this
  refine ⟨⟨[15000, 13200, 13500, 13917, 14022, 15000], ?_⟩,
    C23_missing_row_keyError hb hp hL sb0 sp0 L0
      (Or.inr ⟨⟨[15000, 13200, 13500, 13917, 14022, 15000], ?_⟩, no _ _ _ ?_⟩),
    ⟨[15000, 14976, 14794, 13893, 13812, 12931], ?_⟩,
    C23_missing_row_keyError hb hp hL sb0 sp0 L0 (Or.inl (no _ _ _ ?_))⟩
  all_goals decide +kernel

/-! ### C24 -/

variable {xP xA xb xp xL xP' xA' : QIn} {P A n P' A' n' : ℝ}

/-- C24: both safety factors are strength x area x number of bolts over the net force on the window,
with the thread areas of C20 (all SI: `P`, `A` in Pa, m²). -/
theorem C24_safety_factors (ht : Tabulated size cls t)
    (hP : DenotesM reg xP Dim.pressure P) (hA : DenotesM reg xA Dim.area A)
    (hb : DenotesM reg xb Dim.pressure (sb * psiPa))
    (hp : DenotesM reg xp Dim.pressure (sp * psiPa))
    (hL : DenotesM reg xL Dim.length (L * 0.0254))
    (P0 : 0 ≤ P) (hP1 : P ≠ 101325) (A0 : 0 < A) (sb0 : 0 ≤ sb) (sp0 : 0 < sp) (L0 : 0 < L)
    (n0 : n ≠ 0) :
    safetyFactors reg xP xA n size cls xb xp xL = .ok
      ((sb * psiPa) * (min (t.shear L) (t.tensile sb) * 0.0254 ^ 2) * n /
          ((P - 101325) * A),
       (sp * psiPa) * (t.plate L * 0.0254 ^ 2) * n / ((P - 101325) * A)) := by
  obtain ⟨qP, eP, vP⟩ := parse_spec hP
  obtain ⟨qA, eA, vA⟩ := parse_spec hA
  obtain ⟨qb, eb, vb⟩ := parse_spec hb
  obtain ⟨qp, ep, vp⟩ := parse_spec hp
  obtain ⟨qL, eL, vL⟩ := parse_spec hL
  have ps : 0 < psiPa := PUnit.psi.pos
  have hs := ht.sound
  obtain ⟨a, e, h1, h2, -, -⟩ := areas_spec (reg := reg) ht ⟨_, vb⟩ ⟨_, vp⟩ ⟨_, vL⟩ sb0 sp0 L0
  obtain ⟨c1, e1, v1, -⟩ := sub_spec vP
    ((lit_spec 1 PUnit.atm reg.id rfl).cast (w := 101325) rfl (by norm_num [PUnit.atm]))
  obtain ⟨c2, e2, v2⟩ := mul_spec v1 vA
  obtain ⟨c3, e3, v3, -⟩ := divNum_spec n0 v2
  have hm : 0 < min (t.shear L) (t.tensile sb) := lt_min (hs.shear_pos L0) (hs.tensile_pos sb)
  have hp1 := hs.plate_pos L0
  have hd : (P - 101325) * A ≠ 0 := mul_ne_zero (sub_ne_zero.mpr hP1) A0.ne'
  obtain ⟨c4, e4, v4⟩ := div_spec v3 (rereg_val reg h2) (by positivity)
  obtain ⟨c5, e5, v5⟩ := div_spec vb v4 (by positivity)
  have e6 := toNumber_spec (v5.cast (e := Dim.one) (by dims) rfl)
  obtain ⟨c7, e7, v7⟩ := div_spec v3 (rereg_val reg h1) (by positivity)
  obtain ⟨c8, e8, v8⟩ := div_spec vp v7 (by positivity)
  have e9 := toNumber_spec (v8.cast (e := Dim.one) (by dims) rfl)
  simp only [safetyFactors, eP, eA, eb, ep, eL, ok_bind, check_pres vP P0 true,
    check_area vA A0.le true, check_pres vb (by positivity) true, check_pres vp (by positivity) true,
    check_len vL (by positivity) true, e1, e2, e3, e, e4, e5, e6, e7, e8, e9]
  congr 2
  · field_simp
  · field_simp

/-- C24: the safety factors are proportional to the number of bolts and inversely proportional to the
window area. -/
theorem C24_scaling {k : ℝ} (k0 : 0 < k) (ht : Tabulated size cls t)
    (hP : DenotesM reg xP Dim.pressure P) (hA : DenotesM reg xA Dim.area A)
    (hA' : DenotesM reg xA' Dim.area (k * A))
    (hb : DenotesM reg xb Dim.pressure (sb * psiPa))
    (hp : DenotesM reg xp Dim.pressure (sp * psiPa))
    (hL : DenotesM reg xL Dim.length (L * 0.0254))
    (P0 : 0 ≤ P) (hP1 : P ≠ 101325) (A0 : 0 < A) (sb0 : 0 ≤ sb) (sp0 : 0 < sp) (L0 : 0 < L)
    (n0 : n ≠ 0) :
    ∃ b p, safetyFactors reg xP xA n size cls xb xp xL = .ok (b, p) ∧
      safetyFactors reg xP xA (k * n) size cls xb xp xL = .ok (k * b, k * p) ∧
      safetyFactors reg xP xA' n size cls xb xp xL = .ok (b / k, p / k) := by
  refine ⟨_, _, C24_safety_factors ht hP hA hb hp hL P0 hP1 A0 sb0 sp0 L0 n0, ?_, ?_⟩
  · rw [C24_safety_factors ht hP hA hb hp hL P0 hP1 A0 sb0 sp0 L0 (mul_ne_zero k0.ne' n0)]
    congr 2 <;> ring
  · rw [C24_safety_factors ht hP hA' hb hp hL P0 hP1 (by positivity) sb0 sp0 L0 n0]
    have hd : P - 101325 ≠ 0 := sub_ne_zero.mpr hP1
    congr 2 <;> field_simp

/-- C24: the factors are positive exactly above atmospheric pressure, and strictly decrease with
pressure there. -/
theorem C24_pressure (ht : Tabulated size cls t)
    (hP : DenotesM reg xP Dim.pressure P) (hP' : DenotesM reg xP' Dim.pressure P')
    (hA : DenotesM reg xA Dim.area A)
    (hb : DenotesM reg xb Dim.pressure (sb * psiPa))
    (hp : DenotesM reg xp Dim.pressure (sp * psiPa))
    (hL : DenotesM reg xL Dim.length (L * 0.0254))
    (P0 : 0 ≤ P) (hP1 : P ≠ 101325) (hPP : P < P') (A0 : 0 < A) (sb0 : 0 < sb) (sp0 : 0 < sp)
    (L0 : 0 < L) (n0 : 0 < n) :
    ∃ b p, safetyFactors reg xP xA n size cls xb xp xL = .ok (b, p) ∧
      (0 < b ↔ 101325 < P) ∧ (0 < p ↔ 101325 < P) ∧
      (101325 < P → ∃ b' p', safetyFactors reg xP' xA n size cls xb xp xL = .ok (b', p') ∧
        b' < b ∧ p' < p) := by
  have ps : 0 < psiPa := PUnit.psi.pos
  have hs := ht.sound
  have hm : 0 < min (t.shear L) (t.tensile sb) := lt_min (hs.shear_pos L0) (hs.tensile_pos sb)
  have hp1 := hs.plate_pos L0
  have key : ∀ x : ℝ, 0 < x → (0 < x / ((P - 101325) * A) ↔ 101325 < P) := by
    intro x hx
    rw [div_pos_iff_of_pos_left hx, mul_pos_iff_of_pos_right A0, sub_pos]
  refine ⟨_, _, C24_safety_factors ht hP hA hb hp hL P0 hP1 A0 sb0.le sp0 L0 n0.ne',
    key _ (by positivity), key _ (by positivity), ?_⟩
  intro h1
  have h1' : 0 < P - 101325 := sub_pos.mpr h1
  refine ⟨_, _, C24_safety_factors ht hP' hA hb hp hL (P0.trans hPP.le) (h1.trans hPP).ne' A0 sb0.le
    sp0 L0 n0.ne', ?_, ?_⟩ <;>
  · gcongr

/-- C24: at exactly atmospheric pressure there is no finite factor: the call raises. -/
theorem C24_atmospheric (ht : Tabulated size cls t)
    (hP : DenotesM reg xP Dim.pressure 101325) (hA : DenotesM reg xA Dim.area A)
    (hb : DenotesM reg xb Dim.pressure (sb * psiPa))
    (hp : DenotesM reg xp Dim.pressure (sp * psiPa))
    (hL : DenotesM reg xL Dim.length (L * 0.0254))
    (A0 : 0 < A) (sb0 : 0 ≤ sb) (sp0 : 0 < sp) (L0 : 0 < L) (n0 : n ≠ 0) :
    Raises (safetyFactors reg xP xA n size cls xb xp xL) := by
  obtain ⟨qP, eP, vP⟩ := parse_spec hP
  obtain ⟨qA, eA, vA⟩ := parse_spec hA
  obtain ⟨qb, eb, vb⟩ := parse_spec hb
  obtain ⟨qp, ep, vp⟩ := parse_spec hp
  obtain ⟨qL, eL, vL⟩ := parse_spec hL
  have ps : 0 < psiPa := PUnit.psi.pos
  have hs := ht.sound
  obtain ⟨a, e, h1, h2, -, -⟩ := areas_spec (reg := reg) ht ⟨_, vb⟩ ⟨_, vp⟩ ⟨_, vL⟩ sb0 sp0 L0
  obtain ⟨c1, e1, v1, -⟩ := sub_spec vP
    ((lit_spec 1 PUnit.atm reg.id rfl).cast (w := 101325) rfl (by norm_num [PUnit.atm]))
  obtain ⟨c2, e2, v2⟩ := mul_spec v1 vA
  obtain ⟨c3, e3, v3, -⟩ := divNum_spec n0 v2
  have hm : 0 < min (t.shear L) (t.tensile sb) := lt_min (hs.shear_pos L0) (hs.tensile_pos sb)
  obtain ⟨c4, e4, v4⟩ := div_spec v3 (rereg_val reg h2) (by positivity)
  have e5 := div_zero_spec vb (v4.cast rfl (w := 0) (by simp))
  refine ⟨.zeroDivision, ?_⟩
  simp only [safetyFactors, eP, eA, eb, ep, eL, ok_bind, check_pres vP (by norm_num) true,
    check_area vA A0.le true, check_pres vb (by positivity) true, check_pres vp (by positivity) true,
    check_len vL (by positivity) true, e1, e2, e3, e, e4, e5, err_bind]

/-- Hypotheses of C24 are met: a 20 bar load on a 0.01 m² window, strengths in psi, inches. -/
example : DenotesM reg (.quantity ⟨20, PUnit.bar, 0⟩) Dim.pressure 2000000 ∧
    DenotesM reg (.quantity ⟨80000, PUnit.psi, 0⟩) Dim.pressure (80000 * psiPa) ∧
    DenotesM reg (.quantity ⟨0.01, PUnit.base Dim.area, 0⟩) Dim.area 0.01 ∧
    DenotesM reg (.quantity ⟨1, PUnit.inch, 0⟩) Dim.length (1 * 0.0254) := by
  refine ⟨⟨⟨rfl, ?_⟩, rfl⟩, ⟨⟨rfl, ?_⟩, rfl⟩, ⟨⟨rfl, ?_⟩, rfl⟩, ⟨⟨rfl, ?_⟩, rfl⟩⟩ <;>
    norm_num [PUnit.bar, PUnit.psi, psiPa, PUnit.base, PUnit.inch]

/-! ### C25 -/

/-- The entry of a table in the row `(size, cls)` and the column named `prop`. -/
def HasEntry (cols : List String) (rows : List (String × String × List ℕ)) (prop size cls : String)
    (v : ℕ) : Prop :=
  ∃ vals, (size, cls, vals) ∈ rows ∧ ∃ i : ℕ, cols[i]? = some prop ∧ vals[i]? = some v

theorem mem_cells {tb : Table} {prop size cls : String} {v : ℕ} (hn : tb.cols.Nodup) :
    v ∈ tb.cells prop size cls ↔ HasEntry tb.cols tb.rows prop size cls v := by
  simp only [Table.cells, List.mem_filterMap, List.mem_filter, decide_eq_true_eq]
  constructor
  · rintro ⟨⟨a, b, c⟩, ⟨hm, rfl, rfl⟩, hl⟩
    exact ⟨c, hm, lookup_zip hl⟩
  · rintro ⟨vals, hm, i, h1, h2⟩
    exact ⟨(size, cls, vals), ⟨hm, rfl, rfl⟩, zip_lookup hn h1 h2⟩

theorem ext_nodup : external.cols.Nodup := by decide
theorem int_nodup : internal.cols.Nodup := by decide

/-- Class filter of `get_thread_property`: an "A" and a "2" or "3" anywhere in the string. -/
def LooksExternal (cls : String) : Prop := pyIn "A" cls = true ∧ (pyIn "2" cls = true ∨ pyIn "3" cls = true)
/-- Likewise for internal threads; the external test comes first. -/
def LooksInternal (cls : String) : Prop :=
  ¬ LooksExternal cls ∧ pyIn "B" cls = true ∧ (pyIn "2" cls = true ∨ pyIn "3" cls = true)

/-- What `get_thread_property` does with one table. -/
noncomputable def fromTable (reg : Registry) (specs : Table) (prop size cls : String) :
    Py (List Quantity) :=
  if prop ∉ specs.cols then
    .error (.keyError ("\nThread property '" ++ prop ++ "' not found. Available specs: '" ++
      String.intercalate "', '" specs.cols ++ "'"))
  else if size ∉ specs.rows.map (·.1) then
    .error (.keyError ("\nThread size '" ++ size ++ "' not found"))
  else
    match specs.cells prop size cls with
    | [] => .error (.keyError cls)
    | l => .ok (l.map fun n : ℕ => ⟨(n : ℝ) / 10000, PUnit.inch, reg.id⟩)

theorem getThreadProperty_ext {prop : String} (h : LooksExternal cls) :
    getThreadProperty reg prop size cls = fromTable reg external prop size cls := by
  have : (pyIn "A" cls && (pyIn "2" cls || pyIn "3" cls)) = true := by
    rw [Bool.and_eq_true, Bool.or_eq_true]; exact h
  simp only [getThreadProperty, this, if_true, ok_bind, fromTable]
  rfl

theorem not_ext {cls : String} (h : ¬ LooksExternal cls) :
    (pyIn "A" cls && (pyIn "2" cls || pyIn "3" cls)) = false := by
  rw [Bool.eq_false_iff]
  intro hh
  rw [Bool.and_eq_true, Bool.or_eq_true] at hh; exact h hh

theorem getThreadProperty_int {prop : String} (h : LooksInternal cls) :
    getThreadProperty reg prop size cls = fromTable reg internal prop size cls := by
  have h2 : (pyIn "B" cls && (pyIn "2" cls || pyIn "3" cls)) = true := by
    rw [Bool.and_eq_true, Bool.or_eq_true]; exact h.2
  simp only [getThreadProperty, not_ext h.1, h2, if_true, Bool.false_eq_true, if_false, ok_bind,
    fromTable]
  rfl

/-- C25: any other class raises ValueError, whatever the property and size. -/
theorem C25_bad_class {prop : String} (h1 : ¬ LooksExternal cls) (h2 : ¬ LooksInternal cls) :
    IsValueError (getThreadProperty reg prop size cls) := by
  have h3 : (pyIn "B" cls && (pyIn "2" cls || pyIn "3" cls)) = false := by
    rw [Bool.eq_false_iff]
    intro hh
    rw [Bool.and_eq_true, Bool.or_eq_true] at hh; exact h2 ⟨h1, hh⟩
  refine ⟨"\nbad thread class", ?_⟩
  simp only [getThreadProperty, not_ext h1, h3, Bool.false_eq_true, if_false, err_bind]

/-- C25: with an unknown property or an unknown size the call raises KeyError. -/
theorem C25_unknown_keyError {prop : String} (hc : LooksExternal cls ∨ LooksInternal cls)
    (h : (prop ∉ Data.externalCols ∧ prop ∉ Data.internalCols) ∨
      ((∀ c v, (size, c, v) ∉ Data.externalRows) ∧ ∀ c v, (size, c, v) ∉ Data.internalRows)) :
    ∃ m, getThreadProperty reg prop size cls = .error (.keyError m) := by
  have key : ∀ tb : Table, (prop ∉ tb.cols ∨ ∀ c v, (size, c, v) ∉ tb.rows) →
      ∃ m, fromTable reg tb prop size cls = .error (.keyError m) := by
    intro tb h
    unfold fromTable
    by_cases h1 : prop ∈ tb.cols
    · rw [if_neg (not_not.mpr h1)]
      have h2 : size ∉ tb.rows.map (·.1) := by
        intro hm
        obtain ⟨⟨a, b, c⟩, hm', rfl⟩ := List.mem_map.mp hm
        exact (h.resolve_left (not_not.mpr h1)) b c hm'
      exact ⟨_, if_pos h2⟩
    · exact ⟨_, if_pos h1⟩
  rcases hc with hc | hc
  · rw [getThreadProperty_ext hc]
    exact key external (h.imp And.left And.left)
  · rw [getThreadProperty_int hc]
    exact key internal (h.imp And.right And.right)

theorem fromTable_ok {tb : Table} {prop : String} {l : List Quantity} (hn : tb.cols.Nodup)
    (h : fromTable reg tb prop size cls = .ok l) :
    l ≠ [] ∧ ∀ q ∈ l, q.unit = PUnit.inch ∧ q.reg = reg.id ∧
      ∃ v : ℕ, q.mag = v / 10000 ∧ HasEntry tb.cols tb.rows prop size cls v := by
  unfold fromTable at h
  split at h
  · simp at h
  · split at h
    · simp at h
    · cases hc : tb.cells prop size cls with
      | nil => rw [hc] at h; simp at h
      | cons x xs =>
        rw [hc] at h
        simp only [Except.ok.injEq] at h
        subst h
        refine ⟨by simp, ?_⟩
        intro q hq
        obtain ⟨v, hv, rfl⟩ := List.mem_map.mp hq
        exact ⟨rfl, rfl, v, rfl, (mem_cells hn).mp (hc ▸ hv)⟩

set_option maxRecDepth 100000 in
theorem int_classes : ∀ r ∈ Data.internalRows, r.2.1 = "2B" ∨ r.2.1 = "3B" := by decide +kernel
set_option maxRecDepth 100000 in
theorem ext_classes : ∀ r ∈ Data.externalRows, r.2.1 = "2A" ∨ r.2.1 = "3A" := by decide +kernel

/-- C25: whatever is returned is a tabulated value in inches of the requested registry, from the
external table for 2A/3A and from the internal table for 2B/3B; no other class string ever returns. -/
theorem C25_returns_table_entries {prop : String} {l : List Quantity}
    (h : getThreadProperty reg prop size cls = .ok l) :
    l ≠ [] ∧ (∀ q ∈ l, q.unit = PUnit.inch ∧ q.reg = reg.id ∧ ∃ v : ℕ, q.mag = v / 10000 ∧
      ((cls = "2A" ∨ cls = "3A") ∧ HasEntry Data.externalCols Data.externalRows prop size cls v ∨
       (cls = "2B" ∨ cls = "3B") ∧ HasEntry Data.internalCols Data.internalRows prop size cls v)) := by
  by_cases h1 : LooksExternal cls
  · rw [getThreadProperty_ext h1] at h
    obtain ⟨h2, h3⟩ := fromTable_ok ext_nodup h
    refine ⟨h2, fun q hq => ?_⟩
    obtain ⟨a, b, v, c, d⟩ := h3 q hq
    refine ⟨a, b, v, c, Or.inl ⟨?_, d⟩⟩
    obtain ⟨vals, hm, -⟩ := d
    exact ext_classes _ hm
  · by_cases h2 : LooksInternal cls
    · rw [getThreadProperty_int h2] at h
      obtain ⟨h3, h4⟩ := fromTable_ok int_nodup h
      refine ⟨h3, fun q hq => ?_⟩
      obtain ⟨a, b, v, c, d⟩ := h4 q hq
      refine ⟨a, b, v, c, Or.inr ⟨?_, d⟩⟩
      obtain ⟨vals, hm, -⟩ := d
      exact int_classes _ hm
    · obtain ⟨m, e⟩ := C25_bad_class (reg := reg) (size := size) (prop := prop) h1 h2
      rw [e] at h; simp at h

theorem fromTable_entry {tb : Table} {prop : String} {v : ℕ} (hn : tb.cols.Nodup)
    (h : HasEntry tb.cols tb.rows prop size cls v) :
    ∃ l, fromTable reg tb prop size cls = .ok l ∧ (⟨v / 10000, PUnit.inch, reg.id⟩ : Quantity) ∈ l := by
  have hv := (mem_cells hn).mpr h
  obtain ⟨vals, hm, i, h1, h2⟩ := h
  unfold fromTable
  rw [if_neg (not_not.mpr (List.mem_of_getElem? h1)),
    if_neg (not_not.mpr (List.mem_map.mpr ⟨_, hm, rfl⟩))]
  cases hc : tb.cells prop size cls with
  | nil => rw [hc] at hv; simp at hv
  | cons x xs =>
    refine ⟨_, rfl, ?_⟩
    rw [hc] at hv
    exact List.mem_map.mpr ⟨v, hv, rfl⟩

/-- C25, converse: every entry of either table is returned when asked for. -/
theorem C25_every_entry_reachable {prop : String} {v : ℕ}
    (h : HasEntry Data.externalCols Data.externalRows prop size cls v ∨
      HasEntry Data.internalCols Data.internalRows prop size cls v) :
    ∃ l, getThreadProperty reg prop size cls = .ok l ∧
      (⟨v / 10000, PUnit.inch, reg.id⟩ : Quantity) ∈ l := by
  have dec : ∀ c ∈ ["2A", "3A"], pyIn "A" c = true ∧ (pyIn "2" c = true ∨ pyIn "3" c = true) := by
    decide
  have dec' : ∀ c ∈ ["2B", "3B"], ¬ (pyIn "A" c = true ∧ (pyIn "2" c = true ∨ pyIn "3" c = true)) ∧
      pyIn "B" c = true ∧ (pyIn "2" c = true ∨ pyIn "3" c = true) := by decide
  rcases h with h | h
  · have hc : LooksExternal cls := by
      obtain ⟨vals, hm, -⟩ := h
      exact dec cls (by simpa using ext_classes _ hm)
    rw [getThreadProperty_ext hc]
    exact fromTable_entry (tb := external) ext_nodup h
  · have hc : LooksInternal cls := by
      obtain ⟨vals, hm, -⟩ := h
      exact dec' cls (by simpa using int_classes _ hm)
    rw [getThreadProperty_int hc]
    exact fromTable_entry (tb := internal) int_nodup h

/-- Every entry of the 1/4-20 2A row is one, e.g. its minor diameter 0.1876 in. -/
example : HasEntry Data.externalCols Data.externalRows "minor diameter" "1/4-20" "2A" 1876 :=
  ⟨[2500, 2489, 2408, 2164, 2127, 1876], by decide +kernel, 5, rfl, rfl⟩

/-- "12A", "A2" pass the class filter; by `C25_returns_table_entries` they still raise. -/
example : LooksExternal "12A" ∧ LooksExternal "A2" := by
  unfold LooksExternal; decide

/-! ### C26 -/

set_option maxRecDepth 100000 in
/-- C26 is false of every external thread: "major diameter min" exceeds "major diameter max". -/
theorem C26_violated : ∀ r ∈ Data.externalRows, ∃ lo hi,
    HasEntry Data.externalCols Data.externalRows "major diameter min" r.1 r.2.1 lo ∧
    HasEntry Data.externalCols Data.externalRows "major diameter max" r.1 r.2.1 hi ∧ hi < lo := by
  have h : ∀ r ∈ Data.externalRows, ∃ v1 ∈ r.2.2[1]?, ∃ v2 ∈ r.2.2[2]?, v2 < v1 := by decide +kernel
  intro r hr
  obtain ⟨v1, h1, v2, h2, hlt⟩ := h r hr
  exact ⟨v1, v2, ⟨r.2.2, hr, 1, rfl, h1⟩, ⟨r.2.2, hr, 2, rfl, h2⟩, hlt⟩

set_option maxRecDepth 100000 in
/-- C26, proved part: in every row the pitch diameter limits (both tables) and the internal minor
diameter limits are ordered, minimum strictly below maximum. -/
theorem C26_ordered_partial :
    (∀ r ∈ Data.externalRows, ∃ lo hi, r.2.2[4]? = some lo ∧ r.2.2[3]? = some hi ∧ lo < hi) ∧
    (∀ r ∈ Data.internalRows, ∃ lo hi, r.2.2[3]? = some lo ∧ r.2.2[4]? = some hi ∧ lo < hi) ∧
    (∀ r ∈ Data.internalRows, ∃ lo hi, r.2.2[1]? = some lo ∧ r.2.2[2]? = some hi ∧ lo < hi) ∧
    Data.externalCols[4]? = some "pitch diameter min" ∧
    Data.externalCols[3]? = some "pitch diameter max" ∧
    Data.internalCols[3]? = some "pitch diameter min" ∧
    Data.internalCols[4]? = some "pitch diameter max" ∧
    Data.internalCols[1]? = some "minor diameter min" ∧
    Data.internalCols[2]? = some "minor diameter max" := by
  have h1 : ∀ r ∈ Data.externalRows, ∃ v1 ∈ r.2.2[4]?, ∃ v2 ∈ r.2.2[3]?, v1 < v2 := by decide +kernel
  have h2 : ∀ r ∈ Data.internalRows, ∃ v1 ∈ r.2.2[3]?, ∃ v2 ∈ r.2.2[4]?, v1 < v2 := by decide +kernel
  have h3 : ∀ r ∈ Data.internalRows, ∃ v1 ∈ r.2.2[1]?, ∃ v2 ∈ r.2.2[2]?, v1 < v2 := by decide +kernel
  refine ⟨?_, ?_, ?_, rfl, rfl, rfl, rfl, rfl, rfl⟩
  · intro r hr; obtain ⟨a, ha, b, hb, h⟩ := h1 r hr; exact ⟨a, b, ha, hb, h⟩
  · intro r hr; obtain ⟨a, ha, b, hb, h⟩ := h2 r hr; exact ⟨a, b, ha, hb, h⟩
  · intro r hr; obtain ⟨a, ha, b, hb, h⟩ := h3 r hr; exact ⟨a, b, ha, hb, h⟩

/-- Columns `i` and `j` of two rows for the same thread are ordered (one thread has two rows). -/
def ColumnsOrdered (rows : List (String × String × List ℕ)) (i j : ℕ) : Prop :=
  ∀ r ∈ rows, ∀ r' ∈ rows, r.2.1 = r'.2.1 → r.1 = r'.1 → ∀ x ∈ r.2.2[i]?, ∀ y ∈ r'.2.2[j]?, x < y

instance (rows : List (String × String × List ℕ)) (i j : ℕ) : Decidable (ColumnsOrdered rows i j) := by
  unfold ColumnsOrdered; infer_instance

theorem ordered_entries {cols : List String} {rows : List (String × String × List ℕ)} {i j : ℕ} {p p' size cls : String}
    {v v' : ℕ} (hn : cols.Nodup) (hi : cols[i]? = some p) (hj : cols[j]? = some p') (ho : ColumnsOrdered rows i j)
    (h : HasEntry cols rows p size cls v) (h' : HasEntry cols rows p' size cls v') : v < v' := by
  obtain ⟨vals, hm, k, hk, hv⟩ := h
  obtain ⟨vals', hm', k', hk', hv'⟩ := h'
  have e : ∀ {a b : ℕ} {s : String}, cols[a]? = some s → cols[b]? = some s → a = b := fun {a b s} ha hb => by
    obtain ⟨la, ea⟩ := List.getElem?_eq_some_iff.mp ha
    obtain ⟨lb, eb⟩ := List.getElem?_eq_some_iff.mp hb
    exact (List.Nodup.getElem_inj_iff hn).mp (ea.trans eb.symm)
  rw [e hk hi] at hv
  rw [e hk' hj] at hv'
  exact ho _ hm _ hm' rfl rfl v hv v' hv'

set_option maxRecDepth 100000 in
theorem ext_major : ColumnsOrdered Data.externalRows 2 1 := by decide +kernel
set_option maxRecDepth 100000 in
theorem ext_pitch : ColumnsOrdered Data.externalRows 4 3 := by decide +kernel
set_option maxRecDepth 100000 in
theorem int_pitch : ColumnsOrdered Data.internalRows 3 4 := by decide +kernel
set_option maxRecDepth 100000 in
theorem int_minor : ColumnsOrdered Data.internalRows 1 2 := by decide +kernel

theorem phys_lt {q q' : Quantity} {v v' : ℕ} (hu : q.unit = PUnit.inch) (hu' : q'.unit = PUnit.inch)
    (hm : q.mag = v / 10000) (hm' : q'.mag = v' / 10000) (h : v < v') : q.phys < q'.phys := by
  have : (v : ℝ) < v' := by exact_mod_cast h
  simp only [Quantity.phys, hu, hu', hm, hm']
  have : 0 < PUnit.inch.scale := by norm_num [PUnit.inch]
  nlinarith [mul_lt_mul_of_pos_right ‹(v : ℝ) < v'› this]

/-- C26, in terms of the API, proved part: whenever `get_thread_property` returns both limits of the pitch diameter (any
thread, any class), or both limits of the minor diameter (internal threads), the minimum is below the maximum. -/
theorem C26_api_partial {l l' : List Quantity} :
    (getThreadProperty reg "pitch diameter min" size cls = .ok l →
      getThreadProperty reg "pitch diameter max" size cls = .ok l' → ∀ q ∈ l, ∀ q' ∈ l', q.phys < q'.phys) ∧
    (getThreadProperty reg "minor diameter min" size cls = .ok l →
      getThreadProperty reg "minor diameter max" size cls = .ok l' → ∀ q ∈ l, ∀ q' ∈ l', q.phys < q'.phys) := by
  constructor
  · intro h h' q hq q' hq'
    obtain ⟨u1, -, v, m1, e1⟩ := (C25_returns_table_entries h).2 q hq
    obtain ⟨u2, -, v', m2, e2⟩ := (C25_returns_table_entries h').2 q' hq'
    refine phys_lt u1 u2 m1 m2 ?_
    rcases e1 with ⟨c1, e1⟩ | ⟨c1, e1⟩ <;> rcases e2 with ⟨c2, e2⟩ | ⟨c2, e2⟩
    · exact ordered_entries ext_nodup (i := 4) (j := 3) rfl rfl ext_pitch e1 e2
    · rcases c1 with rfl | rfl <;> simp at c2
    · rcases c1 with rfl | rfl <;> simp at c2
    · exact ordered_entries int_nodup (i := 3) (j := 4) rfl rfl int_pitch e1 e2
  · intro h h' q hq q' hq'
    obtain ⟨u1, -, v, m1, e1⟩ := (C25_returns_table_entries h).2 q hq
    obtain ⟨u2, -, v', m2, e2⟩ := (C25_returns_table_entries h').2 q' hq'
    refine phys_lt u1 u2 m1 m2 ?_
    rcases e1 with ⟨c1, e1⟩ | ⟨c1, e1⟩ <;> rcases e2 with ⟨c2, e2⟩ | ⟨c2, e2⟩
    · obtain ⟨_, -, i, hi, -⟩ := e1
      exact absurd (List.mem_of_getElem? hi) (by decide)
    · rcases c1 with rfl | rfl <;> simp at c2
    · rcases c1 with rfl | rfl <;> simp at c2
    · exact ordered_entries int_nodup (i := 1) (j := 2) rfl rfl int_minor e1 e2

/-- C26, in terms of the API, refuted: whenever `get_thread_property` returns both limits of the major diameter, the
"minimum" is above the "maximum"; and it does so for every external thread. -/
theorem C26_api_violated :
    (∀ {l l' : List Quantity}, getThreadProperty reg "major diameter min" size cls = .ok l →
      getThreadProperty reg "major diameter max" size cls = .ok l' → ∀ q ∈ l, ∀ q' ∈ l', q'.phys < q.phys) ∧
    ∀ r ∈ Data.externalRows, ∃ l l' : List Quantity, l ≠ [] ∧ l' ≠ [] ∧
      getThreadProperty reg "major diameter min" r.1 r.2.1 = .ok l ∧
      getThreadProperty reg "major diameter max" r.1 r.2.1 = .ok l' := by
  constructor
  · intro l l' h h' q hq q' hq'
    obtain ⟨u1, -, v, m1, e1⟩ := (C25_returns_table_entries h).2 q hq
    obtain ⟨u2, -, v', m2, e2⟩ := (C25_returns_table_entries h').2 q' hq'
    refine phys_lt u2 u1 m2 m1 ?_
    rcases e1 with ⟨c1, e1⟩ | ⟨c1, e1⟩ <;> rcases e2 with ⟨c2, e2⟩ | ⟨c2, e2⟩
    · exact ordered_entries ext_nodup (i := 2) (j := 1) rfl rfl ext_major e2 e1
    · rcases c1 with rfl | rfl <;> simp at c2
    · rcases c1 with rfl | rfl <;> simp at c2
    · obtain ⟨_, -, i, hi, -⟩ := e2
      exact absurd (List.mem_of_getElem? hi) (by decide)
  · intro r hr
    obtain ⟨lo, hi, h1, h2, -⟩ := C26_violated r hr
    obtain ⟨l, e1, m1⟩ := C25_every_entry_reachable (reg := reg) (.inl h1)
    obtain ⟨l', e2, m2⟩ := C25_every_entry_reachable (reg := reg) (.inl h2)
    exact ⟨l, l', List.ne_nil_of_mem m1, List.ne_nil_of_mem m2, e1, e2⟩

/-- Both limits are returned, e.g. for 1/4-20 2A. -/
example : ∃ l l' : List Quantity, getThreadProperty reg "pitch diameter min" "1/4-20" "2A" = .ok l ∧
    getThreadProperty reg "pitch diameter max" "1/4-20" "2A" = .ok l' ∧ l ≠ [] ∧ l' ≠ [] := by
  obtain ⟨l, e1, m1⟩ := C25_every_entry_reachable (reg := reg) (size := "1/4-20") (cls := "2A")
    (prop := "pitch diameter min") (v := 2127)
    (.inl ⟨[2500, 2489, 2408, 2164, 2127, 1876], by decide +kernel, 4, rfl, rfl⟩)
  obtain ⟨l', e2, m2⟩ := C25_every_entry_reachable (reg := reg) (size := "1/4-20") (cls := "2A")
    (prop := "pitch diameter max") (v := 2164)
    (.inl ⟨[2500, 2489, 2408, 2164, 2127, 1876], by decide +kernel, 3, rfl, rfl⟩)
  exact ⟨l, l', e1, e2, List.ne_nil_of_mem m1, List.ne_nil_of_mem m2⟩

end Pypbomb.Bolt
