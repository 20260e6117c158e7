/-
C81: the documented tube design procedure (docs/example.ipynb) as one computation.
-/
import Verif.Model.Workflow
import Verif.Props.TubeTables
import Verif.Props.MaxInitial
import Verif.Props.Flange

namespace Pypbomb.Workflow
open Quantity Tube

variable {reg reg' : Registry} {size schedule schedule' material : String} {welded : Bool} {x x' : QIn}
  {t t' sf : ℝ} {od w w' : ℕ}

/-! ### Lemmas -/

theorem npInterp_pos_iff {pre post : List (ℝ × ℝ)} {a b : ℝ × ℝ} (h : Inc (pre ++ a :: b :: post))
    (hd : Dec (pre ++ a :: b :: post)) (ha : 0 < a.2) (hb : b.2 = 0)
    (y : ℝ) : 0 < npInterp y (pre ++ a :: b :: post) ↔ y < b.1 := by
  have hb' : npInterp b.1 (pre ++ a :: b :: post) = 0 := by
    rw [show pre ++ a :: b :: post = (pre ++ [a]) ++ b :: post by simp] at h ⊢
    rw [npInterp_knot _ h, hb]
  have ha' := npInterp_knot pre h
  have anti := npInterp_antitone h hd
  constructor
  · intro hp
    by_contra hn
    have : npInterp y (pre ++ a :: b :: post) ≤ npInterp b.1 (pre ++ a :: b :: post) := anti (not_lt.mp hn)
    linarith
  · intro hy
    by_cases hya : a.1 ≤ y
    · rw [npInterp_mid pre h hya hy.le, hb]
      have hab : 0 < b.1 - a.1 := by linarith
      have : (y - a.1) / (b.1 - a.1) < 1 := by rw [div_lt_one hab]; linarith
      nlinarith
    · have : npInterp a.1 (pre ++ a :: b :: post) ≤ npInterp y (pre ++ a :: b :: post) := anti (not_le.mp hya).le
      linarith

/-- For every size the outer diameter exceeds each tabulated wall except in one row; there, too, they differ. -/
theorem wall_cases (hod : PipeCell size "OD" od) (hw : PipeCell size schedule w) (hne : schedule ≠ "OD") :
    (¬ (size = "28" ∧ schedule = "10") → 2 * w < od ∧ 15 * od ≤ 2015 * w) ∧
    (size = "28" ∧ schedule = "10" → od = 28000 ∧ w = 312000) := by
  have key : ∀ r ∈ Data.pipeRows, ∀ c ∈ Data.pipeCols.zip r.2, c.1 ≠ "OD" → ∀ o ∈ r.2[0]?.join, ∀ w ∈ c.2,
      (¬ (r.1 = "28" ∧ c.1 = "10") → 2 * w < o ∧ 15 * o ≤ 2015 * w) ∧
      (r.1 = "28" ∧ c.1 = "10" → o = 28000 ∧ w = 312000) := by decide +kernel
  obtain ⟨cells, hm, i, h1, h2⟩ := hw
  obtain ⟨cells', hm', j, h3, h4⟩ := hod
  have hr := pipeRow_iff.mpr hm
  obtain rfl : cells = cells' := Option.some.inj (hr.symm.trans (pipeRow_iff.mpr hm'))
  have hj : j = 0 := by
    have hn := pipe_cols_nodup
    have h0 : Data.pipeCols[0]? = some "OD" := rfl
    exact (List.getElem?_inj (List.getElem?_eq_some_iff.mp h3).1 hn).mp (h3.trans h0.symm)
  subst hj
  exact key _ hm (schedule, some w) (mem_zip_iff.mpr ⟨i, h1, h2⟩) hne od (by simp [h4]) w rfl

theorem ksi_pos : 0 < (1000 * psiPa) := PUnit.ksi.pos

/-! ### The statements -/

/-- C81: for every size and schedule in the table (outer diameter `od`, wall `w`, in thousandths of an inch), every
temperature and material with allowable stress `s` ksi and every safety factor, the procedure returns the pressure
`2 s w / ((od - w) sf)`. -/
theorem C81_value {s : ℝ} (hod : PipeCell size "OD" od) (hw : PipeCell size schedule w) (hne : schedule ≠ "OD")
    (hs : maxStress reg x material welded = .ok ⟨s, PUnit.ksi, reg.id⟩) (hsf : sf ≠ 0) :
    ∃ q, tubePressure reg size schedule x material welded sf = .ok q ∧
      HasVal q Dim.pressure (2 * (s * (1000 * psiPa)) * w / ((od - w) * sf)) reg.id := by
  obtain ⟨h1, h2⟩ := wall_cases hod hw hne
  have how : (od : ℝ) - w ≠ 0 := by
    by_cases hc : size = "28" ∧ schedule = "10"
    · obtain ⟨rfl, rfl⟩ := h2 hc; norm_num
    · have := (h1 hc).1
      have : (2 * w : ℝ) < od := by exact_mod_cast this
      have : (0 : ℝ) ≤ w := Nat.cast_nonneg w
      intro h; linarith
  have hd := (C27_dimensions (reg := reg) (size := size) (schedule := schedule)).1 od w hod hw hne
  have hin : PUnit.inch.scale ≠ 0 := PUnit.inch.pos.ne'
  obtain ⟨q, e, h⟩ := maxPressure_eval
    (qi := ⟨(od : ℝ) / 1000 - 2 * ((w : ℝ) / 1000), PUnit.inch, reg.id⟩) (qo := ⟨(od : ℝ) / 1000, PUnit.inch, reg.id⟩)
    (qs := ⟨s, PUnit.ksi, reg.id⟩) (sf := sf) ⟨rfl, rfl, rfl, rfl⟩ ⟨rfl, rfl, rfl, rfl⟩ ⟨rfl, rfl, rfl, rfl⟩ (by
      rw [← add_mul]
      refine mul_ne_zero ?_ hin
      rw [show (od : ℝ) / 1000 + ((od : ℝ) / 1000 - 2 * ((w : ℝ) / 1000)) = 2 * (od - w) / 1000 by ring]
      exact div_ne_zero (mul_ne_zero two_ne_zero how) (by norm_num)) hsf
  refine ⟨q, by simp only [tubePressure, hd, hs, ok_bind, e], h.cast rfl ?_⟩
  show 2 * (s * (1000 * psiPa)) * ((od : ℝ) / 1000 * PUnit.inch.scale - ((od : ℝ) / 1000 - 2 * ((w : ℝ) / 1000)) *
      PUnit.inch.scale) / (((od : ℝ) / 1000 * PUnit.inch.scale + ((od : ℝ) / 1000 - 2 * ((w : ℝ) / 1000)) *
      PUnit.inch.scale) * sf) = _
  rw [show (od : ℝ) / 1000 * PUnit.inch.scale - ((od : ℝ) / 1000 - 2 * ((w : ℝ) / 1000)) * PUnit.inch.scale =
      w * (2 * (PUnit.inch.scale / 1000)) by ring,
    show (od : ℝ) / 1000 * PUnit.inch.scale + ((od : ℝ) / 1000 - 2 * ((w : ℝ) / 1000)) * PUnit.inch.scale =
      (od - w) * (2 * (PUnit.inch.scale / 1000)) by ring]
  have : (2 * (PUnit.inch.scale / 1000)) ≠ 0 := mul_ne_zero two_ne_zero (div_ne_zero hin (by norm_num))
  generalize (2 * (PUnit.inch.scale / 1000)) = k at *
  field_simp

/-- The temperature (degF) from which on the stress tables give no strength. -/
def strengthEnds (material : String) : Option ℝ :=
  if material = "304L" then some 850 else if material = "316L" then some 900 else none

theorem stress_pos_iff {i : ℕ} (hi : (stressCols welded)[i]? = some material) :
    0 < npInterp t (points i (stressRows welded)) ↔ ∀ b ∈ strengthEnds material, t < b := by
  have h7 := col_lt hi
  obtain ⟨hinc, hdec⟩ := points_of_chk (stress_chk welded i h7)
  have five : ∀ i < 5, ∀ r ∈ stressRows welded, 54 ≤ r.2.getD i 0 := by cases welded <;> decide +kernel
  have names : ∀ i < 5, ∀ m ∈ (stressCols welded)[i]?, m ≠ "304L" ∧ m ≠ "316L" := by
    cases welded <;> decide +kernel
  have h56 : (stressCols welded)[5]? = some "304L" ∧ (stressCols welded)[6]? = some "316L" := by
    cases welded <;> exact ⟨rfl, rfl⟩
  by_cases h5 : i < 5
  · obtain ⟨n1, n2⟩ := names i h5 material hi
    have : (54 / 10 : ℝ) ≤ npInterp t (points i (stressRows welded)) := by
      refine npInterp_ge hinc ?_ ?_ t
      · cases welded <;> simp [points, stressRows, Data.weldedRows, Data.seamlessRows]
      · intro p hp
        obtain ⟨a, ha, rfl⟩ := List.mem_map.mp hp
        have := five i h5 a ha
        have : (54 : ℝ) ≤ (a.2.getD i 0 : ℕ) := by exact_mod_cast this
        simp only
        linarith
    constructor
    · intro _ b hb
      rw [strengthEnds, if_neg n1, if_neg n2] at hb
      cases hb
    · intro _; linarith
  · have : i = 5 ∨ i = 6 := by omega
    rcases this with rfl | rfl
    · obtain rfl : material = "304L" := Option.some.inj (hi.symm.trans h56.1)
      obtain ⟨pre, post, k, hk, he⟩ : ∃ pre post, ∃ k : ℕ, 0 < k ∧ points 5 (stressRows welded) =
          pre ++ (800, (k : ℝ) / 10) :: (850, (0 : ℝ) / 10) :: post := by
        cases welded
        · exact ⟨points 5 (Data.seamlessRows.take 10), points 5 (Data.seamlessRows.drop 12), 91, by norm_num, by
            simp [points, stressRows, Data.seamlessRows]⟩
        · exact ⟨points 5 (Data.weldedRows.take 10), points 5 (Data.weldedRows.drop 12), 77, by norm_num, by
            simp [points, stressRows, Data.weldedRows]⟩
      rw [he] at hinc hdec ⊢
      rw [npInterp_pos_iff hinc hdec (by positivity) (by simp)]
      simp [strengthEnds]
    · obtain rfl : material = "316L" := Option.some.inj (hi.symm.trans h56.2)
      obtain ⟨pre, post, k, hk, he⟩ : ∃ pre post, ∃ k : ℕ, 0 < k ∧ points 6 (stressRows welded) =
          pre ++ (850, (k : ℝ) / 10) :: (900, (0 : ℝ) / 10) :: post := by
        cases welded
        · exact ⟨points 6 (Data.seamlessRows.take 11), points 6 (Data.seamlessRows.drop 13), 84, by norm_num, by
            simp [points, stressRows, Data.seamlessRows]⟩
        · exact ⟨points 6 (Data.weldedRows.take 11), points 6 (Data.weldedRows.drop 13), 72, by norm_num, by
            simp [points, stressRows, Data.weldedRows]⟩
      rw [he] at hinc hdec ⊢
      rw [npInterp_pos_iff hinc hdec (by positivity) (by simp)]
      simp [strengthEnds]

theorem tubePressure_eval {i : ℕ} (hod : PipeCell size "OD" od) (hw : PipeCell size schedule w) (hne : schedule ≠ "OD")
    (hx : IsDegF reg x t) (hi : (stressCols welded)[i]? = some material) (hsf : sf ≠ 0) :
    ∃ q, tubePressure reg size schedule x material welded sf = .ok q ∧
      HasVal q Dim.pressure
        (2 * (npInterp t (points i (stressRows welded)) * (1000 * psiPa)) * w / ((od - w) * sf)) reg.id :=
  C81_value hod hw hne (maxStress_eval hx hi) hsf

/-- C81: for every pipe in the table except 28 inch schedule 10, every tabulated material and every temperature, the
pressure limit is positive exactly below the temperature at which the material's strength ends (850 degF for 304L,
900 degF for 316L, never for the others), and zero from there on; for 28 inch schedule 10 it is never positive. -/
theorem C81_sign (hod : PipeCell size "OD" od) (hw : PipeCell size schedule w) (hne : schedule ≠ "OD")
    (hx : IsDegF reg x t) (hm : material ∈ stressCols welded) (hsf : 0 < sf) :
    ∃ q, tubePressure reg size schedule x material welded sf = .ok q ∧ q.unit.dim = Dim.pressure ∧
      (¬ (size = "28" ∧ schedule = "10") →
        0 ≤ q.phys ∧ (0 < q.phys ↔ ∀ b ∈ strengthEnds material, t < b)) ∧
      (size = "28" ∧ schedule = "10" → q.phys ≤ 0 ∧ (q.phys < 0 ↔ ∀ b ∈ strengthEnds material, t < b)) := by
  obtain ⟨i, hi⟩ := List.mem_iff_getElem?.mp hm
  obtain ⟨q, e, h⟩ := tubePressure_eval hod hw hne hx hi hsf.ne'
  have hp := stress_pos_iff (t := t) hi
  have hs0 : 0 ≤ npInterp t (points i (stressRows welded)) := by
    refine npInterp_ge (points_of_chk (stress_chk welded i (col_lt hi))).1 ?_ ?_ t
    · cases welded <;> simp [points, stressRows, Data.weldedRows, Data.seamlessRows]
    · intro p hp
      obtain ⟨a, -, rfl⟩ := List.mem_map.mp hp
      positivity
  obtain ⟨c1, c2⟩ := wall_cases hod hw hne
  have hw0 : (0 : ℝ) < w := by exact_mod_cast pipe_wall_pos hw
  have hk := ksi_pos
  refine ⟨q, e, h.dim, fun hc => ?_, fun hc => ?_⟩ <;> rw [h.phys, ← hp]
  · have h2 := (c1 hc).1
    have h2 : (2 * w : ℝ) < od := by exact_mod_cast h2
    have hpos : 0 < (od - w : ℝ) * sf := mul_pos (by linarith) hsf
    refine ⟨by positivity, ?_⟩
    rw [lt_div_iff₀ hpos, zero_mul]
    constructor
    · intro h3
      by_contra h4
      rw [le_antisymm (not_lt.mp h4) hs0] at h3
      simp at h3
    · intro h3; positivity
  · obtain ⟨rfl, rfl⟩ := c2 hc
    have hneg : ((28000 : ℕ) - (312000 : ℕ) : ℝ) * sf < 0 := by
      apply mul_neg_of_neg_of_pos _ hsf
      norm_num
    refine ⟨div_nonpos_of_nonneg_of_nonpos (by positivity) hneg.le, ?_⟩
    rw [div_lt_iff_of_neg hneg, zero_mul]
    constructor
    · intro h3
      by_contra h4
      rw [le_antisymm (not_lt.mp h4) hs0] at h3
      simp at h3
    · intro h3; positivity

/-- C81: a hotter or a welded tube is never rated higher, for every pipe in the table except 28 inch schedule 10. -/
theorem C81_hotter_welded (hod : PipeCell size "OD" od) (hw : PipeCell size schedule w) (hne : schedule ≠ "OD")
    (hc : ¬ (size = "28" ∧ schedule = "10")) (hx : IsDegF reg x t) (hx' : IsDegF reg x' t') (htt : t ≤ t')
    (hm : material ∈ stressCols welded) (hsf : 0 < sf) :
    ∃ q q' qw, tubePressure reg size schedule x material welded sf = .ok q ∧
      tubePressure reg size schedule x' material welded sf = .ok q' ∧
      tubePressure reg size schedule x material true sf = .ok qw ∧ q'.phys ≤ q.phys ∧ qw.phys ≤ q.phys := by
  have hm2 : material ∈ Data.weldedCols := by
    cases welded with
    | true => exact hm
    | false =>
      have : Data.seamlessCols = Data.weldedCols := by decide
      rw [← this]; exact hm
  obtain ⟨s, s', e1, e2, u1, u2, hle⟩ := C29_antitone hx hx' hm htt
  obtain ⟨ws, ss, e3, e4, u3, u4, hle2⟩ := C31_welded_le_seamless hx hm2
  obtain ⟨i, hi⟩ := List.mem_iff_getElem?.mp hm
  have r1 := maxStress_eval hx hi
  have r2 := maxStress_eval hx' hi
  obtain ⟨j, hj⟩ := List.mem_iff_getElem?.mp hm2
  have r3 := maxStress_eval (welded := true) hx hj
  have hww : ws.mag ≤ s.mag := by
    cases welded with
    | true =>
      rw [e1, Except.ok.injEq] at e3
      rw [e3]
    | false =>
      rw [e1, Except.ok.injEq] at e4
      rw [e4]; exact hle2
  rw [e1, Except.ok.injEq] at r1
  rw [e2, Except.ok.injEq] at r2
  rw [e3, Except.ok.injEq] at r3
  obtain ⟨sm, su, sr⟩ := s
  obtain ⟨sm', su', sr'⟩ := s'
  obtain ⟨wm, wu, wr⟩ := ws
  simp only [Quantity.mk.injEq] at r1 r2 r3
  obtain ⟨-, rfl, rfl⟩ := r1
  obtain ⟨-, rfl, rfl⟩ := r2
  obtain ⟨-, rfl, rfl⟩ := r3
  obtain ⟨q, f1, h1⟩ := C81_value hod hw hne e1 hsf.ne'
  obtain ⟨q', f2, h2⟩ := C81_value hod hw hne e2 hsf.ne'
  obtain ⟨qw, f3, h3⟩ := C81_value hod hw hne e3 hsf.ne'
  have hw2 := ((wall_cases hod hw hne).1 hc).1
  have hw2 : (2 * w : ℝ) < od := by exact_mod_cast hw2
  have hw0 : (0 : ℝ) < w := by exact_mod_cast pipe_wall_pos hw
  have hpos : 0 < (od - w : ℝ) * sf := mul_pos (by linarith) hsf
  have hk := ksi_pos
  simp only at hle hww
  refine ⟨q, q', qw, f1, f2, f3, ?_, ?_⟩
  · rw [h1.phys, h2.phys]; gcongr
  · rw [h1.phys, h3.phys]; gcongr

/-- C81: of two schedules of the same size the one with the thicker wall has the higher limit (below the temperature
at which the strength ends); 28 inch schedule 10 excepted. -/
theorem C81_thicker (hod : PipeCell size "OD" od) (hw : PipeCell size schedule w) (hne : schedule ≠ "OD")
    (hw' : PipeCell size schedule' w') (hne' : schedule' ≠ "OD") (hc : ¬ (size = "28" ∧ schedule = "10"))
    (hc' : ¬ (size = "28" ∧ schedule' = "10")) (hlt : w < w') (hx : IsDegF reg x t)
    (hm : material ∈ stressCols welded) (ht : ∀ b ∈ strengthEnds material, t < b) (hsf : 0 < sf) :
    ∃ q q', tubePressure reg size schedule x material welded sf = .ok q ∧
      tubePressure reg size schedule' x material welded sf = .ok q' ∧ q.phys < q'.phys := by
  obtain ⟨i, hi⟩ := List.mem_iff_getElem?.mp hm
  obtain ⟨q, e, h⟩ := tubePressure_eval hod hw hne hx hi hsf.ne'
  obtain ⟨q', e', h'⟩ := tubePressure_eval hod hw' hne' hx hi hsf.ne'
  have hs := (stress_pos_iff (t := t) hi).mpr ht
  have h2 := ((wall_cases hod hw hne).1 hc).1
  have h2' := ((wall_cases hod hw' hne').1 hc').1
  have h2 : (2 * w : ℝ) < od := by exact_mod_cast h2
  have h2' : (2 * w' : ℝ) < od := by exact_mod_cast h2'
  have hlt : (w : ℝ) < w' := by exact_mod_cast hlt
  have hw0 : (0 : ℝ) < w := by exact_mod_cast pipe_wall_pos hw
  have hk := ksi_pos
  refine ⟨q, q', e, e', ?_⟩
  rw [h.phys, h'.phys]
  have hS : 0 < 2 * (npInterp t (points i (stressRows welded)) * (1000 * psiPa)) := by positivity
  generalize 2 * (npInterp t (points i (stressRows welded)) * (1000 * psiPa)) = S at hS
  have p1 : 0 < ((od : ℝ) - w) * sf := mul_pos (by linarith) hsf
  have p2 : 0 < ((od : ℝ) - w') * sf := mul_pos (by linarith) hsf
  rw [div_lt_div_iff₀ p1 p2]
  have : 0 < S * sf * od * (w' - w) := by
    have : (0 : ℝ) < od := by linarith
    have := sub_pos.mpr hlt
    positivity
  nlinarith

/-- C81: doubling the safety factor halves the limit; in general it is inversely proportional to it. -/
theorem C81_safety_factor (hod : PipeCell size "OD" od) (hw : PipeCell size schedule w) (hne : schedule ≠ "OD")
    (hx : IsDegF reg x t) (hm : material ∈ stressCols welded) (hsf : 0 < sf) :
    ∃ q q1, tubePressure reg size schedule x material welded sf = .ok q ∧
      tubePressure reg size schedule x material welded 1 = .ok q1 ∧ q.phys * sf = q1.phys := by
  obtain ⟨i, hi⟩ := List.mem_iff_getElem?.mp hm
  obtain ⟨q, e, h⟩ := tubePressure_eval hod hw hne hx hi hsf.ne'
  obtain ⟨q1, e1, h1⟩ := tubePressure_eval hod hw hne hx hi one_ne_zero
  refine ⟨q, q1, e, e1, ?_⟩
  rw [h.phys, h1.phys, mul_one, ← div_div, div_mul_cancel₀ _ hsf.ne']

/-! ### The whole procedure -/

variable {ct : Cantera} {collect : SD.Collect} {T : Quantity} {species : ct.Species} {mechanism state : String}
  {pm tol : ℝ} {useDlf : Bool} {maxIter : ℤ} {p : Quantity} {f : Found}

/-- C81: the outcome of the whole procedure is safe.  For every pipe in the table (28 inch schedule 10 excepted), every
material and temperature whose allowable stress `s` is at least 1 ksi, a safety factor up to 10 and a tolerance up to
one half: if the procedure returns before its iteration limit, then the shock state at the returned pressure exists and
its pressure times the dynamic load factor there (1 if switched off) causes a mean-diameter hoop stress
`P delta (od - w) / (2 w)` in the tube that equals the allowable stress over the safety factor up to the relative
tolerance.  In particular the unchecked 1 atm starting guess is never returned. -/
theorem C81_safe {s : ℝ} (hod : PipeCell size "OD" od) (hw : PipeCell size schedule w) (hne : schedule ≠ "OD")
    (hc : ¬ (size = "28" ∧ schedule = "10"))
    (hs : maxStress reg (.quantity T) material welded = .ok ⟨s, PUnit.ksi, reg.id⟩) (hs1 : 1 ≤ s)
    (hsf : 0 < sf) (hsf10 : sf ≤ 10) (htol : |tol| ≤ 1 / 2) (hit : 1 ≤ maxIter)
    (h : initialPressure ct collect reg reg' size schedule T material welded sf species mechanism pm useDlf tol maxIter
      state = .ok (p, f)) (hn : f.updates < maxIter.toNat) :
    1 ≤ f.updates ∧ ∃ o δ d E rho nu,
      SD.reflectedShockState ct collect reg' T f.pressure species mechanism = .ok o ∧
      dimensions reg size schedule = .ok d ∧ elasticModulus reg (.str material) = .ok E ∧
      density reg (.str material) = .ok rho ∧ poisson (.str material) = .ok nu ∧
      (useDlf = true → dynamicLoadFactor (.quantity d.inner) (.quantity d.outer) (.quantity o.cjSpeed) (.quantity E)
        (.quantity rho) nu pm = .ok δ) ∧
      (useDlf = false → δ = 1) ∧
      |(if state = "cj" then ct.P o.cjState else ct.P o.reflectedState) * δ * (od - w) / (2 * w) -
        s * (1000 * psiPa) / sf| ≤ |tol| * (s * (1000 * psiPa) / sf) := by
  simp only [initialPressure, bind_eq_ok, Except.ok.injEq, Prod.mk.injEq] at h
  obtain ⟨p', h1, d, h2, pa, h3, E, h4, rho, h5, nu, h6, f', h7, rfl, rfl⟩ := h
  obtain ⟨q, e, hv⟩ := C81_value hod hw hne hs hsf.ne'
  rw [e, Except.ok.injEq] at h1
  subst h1
  rw [convert_any (by rw [hv.dim]; rfl), Except.ok.injEq] at h3
  subst h3
  obtain ⟨hw2, hw3⟩ := (wall_cases hod hw hne).1 hc
  have hw2 : (2 * w : ℝ) < od := by exact_mod_cast hw2
  have hw3 : (15 * od : ℝ) ≤ 2015 * w := by exact_mod_cast hw3
  have hw0 : (0 : ℝ) < w := by exact_mod_cast pipe_wall_pos hw
  have how : (0 : ℝ) < od - w := by linarith
  have hk : (6000000 : ℝ) ≤ (1000 * psiPa) := by norm_num [psiPa]
  have hpa : (q.phys - PUnit.pascal.offset) / PUnit.pascal.scale = q.phys := by simp [PUnit.pascal, PUnit.base]
  have hsk : (6000000 : ℝ) ≤ s * (1000 * psiPa) := by nlinarith
  have hbig : 8 < q.phys := by
    rw [hv.phys, lt_div_iff₀ (mul_pos how hsf)]
    have a1 : ((od : ℝ) - w) * sf ≤ (2000 / 15 * w) * 10 := by
      apply mul_le_mul _ hsf10 hsf.le (by positivity)
      linarith
    have a2 : 2 * 6000000 * (w : ℝ) ≤ 2 * (s * (1000 * psiPa)) * w := by gcongr
    nlinarith
  have h7' := h7
  unfold initialPressureSearch at h7'
  have hu : 1 ≤ f'.updates := by
    refine C40_compared_partial h7' (fun v δ hd => ?_) ?_ (by linarith) hit
    · exact C40_dlf_bound hd
    · show 4 < (1 - |tol|) * ((q.phys - PUnit.pascal.offset) / PUnit.pascal.scale)
      rw [hpa]
      nlinarith
  refine ⟨hu, ?_⟩
  obtain ⟨o, δ, g1, g2, g3, g4⟩ := C71_limit_respected (M := q.phys) h7 rfl (by
    show (q.phys - PUnit.pascal.offset) / PUnit.pascal.scale * PUnit.pascal.scale + PUnit.pascal.offset = q.phys
    rw [hpa]; simp [PUnit.pascal, PUnit.base]) (by linarith) hu hn
  refine ⟨o, δ, d, E, rho, nu, g1, h2, h4, h5, h6, g2, g3, ?_⟩
  generalize (if state = "cj" then ct.P o.cjState else ct.P o.reflectedState) * δ = P at g4 ⊢
  have hM : s * (1000 * psiPa) / sf = q.phys * ((od - w) / (2 * w)) := by
    rw [hv.phys]
    field_simp
  have hpos : (0 : ℝ) ≤ (od - w) / (2 * w) := by positivity
  rw [hM, mul_div_assoc, ← sub_mul, abs_mul, abs_of_nonneg hpos, ← mul_assoc]
  exact mul_le_mul_of_nonneg_right g4 hpos

/-- C81: the flange class chosen for the tube carries the tube's own pressure limit at that temperature (and every
smaller class does not), whenever one is returned; and whenever the limit is positive and some class carries it, one is
returned. -/
theorem C81_flange {u : Registry} {c : String} {tc : ℝ} {q : Quantity}
    (hq : tubePressure reg size schedule x material welded sf = .ok q)
    (hd : q.unit.dim = Dim.pressure) (hq0 : 0 ≤ q.phys) (hy : Flange.IsDegC reg x tc) (hy' : Flange.IsDegC u x tc)
    (hmat : ∃ row ∈ Data.materialRows, row.1 = material) :
    flangeClass u reg size schedule x material welded sf = .ok c ↔
      ∃ n r, (c, n) ∈ Flange.classes ∧ Flange.getMaxPressure u c x (.str material) = .ok r ∧ q.phys ≤ r.phys ∧
        ∀ c' n' r', (c', n') ∈ Flange.classes → n' < n → Flange.getMaxPressure u c' x (.str material) = .ok r' →
          r'.phys < q.phys := by
  have hb : Flange.IsBar reg (.quantity q) (q.phys / 100000) :=
    ⟨hd, by rw [div_mul_cancel₀ _ (by norm_num)]; rfl⟩
  have key := Flange.C43_agree (c := c) (u := u) hb hy hy' (div_nonneg hq0 (by norm_num)) hmat
  rw [div_mul_cancel₀ _ (by norm_num)] at key
  simp only [flangeClass, hq, ok_bind]
  exact key

/-! ### Concrete cases -/

/-- NPS 6 schedule 80 in 316L at 20 degC, the tube of the notebook: outer diameter 6.625 in, wall 0.432 in, rated
15.7 ksi. -/
theorem ex_cells : PipeCell "6" "OD" 6625 ∧ PipeCell "6" "80" 432 := by
  have hm : ∃ r ∈ Data.pipeRows, r.1 = "6" ∧ r.2[0]? = some (some 6625) ∧
      r.2[(Data.pipeCols.idxOf "80")]? = some (some 432) := by decide +kernel
  obtain ⟨⟨_, cells⟩, h1, rfl, h2, h3⟩ := hm
  refine ⟨⟨cells, h1, 0, rfl, h2⟩, ⟨cells, h1, Data.pipeCols.idxOf "80", ?_, h3⟩⟩
  decide +kernel

theorem ex_temp : IsDegF reg (.quantity ⟨20, PUnit.degC, 0⟩) 68 := ⟨rfl, by norm_num [PUnit.degC, PUnit.degF]⟩

theorem ex_stress : maxStress reg (.quantity ⟨20, PUnit.degC, 0⟩) "316L" false = .ok ⟨157 / 10, PUnit.ksi, reg.id⟩ := by
  rw [C29_interpolates (reg := reg) (welded := false) (material := "316L") (i := 6) (s := 157) (s' := 157)
    (r := (-20, [188, 188, 188, 188, 188, 157, 157])) (r' := (100, [188, 188, 188, 188, 188, 157, 157]))
    (pre := []) (post := (stressRows false).drop 2) ex_temp rfl rfl rfl rfl (by norm_num) (by norm_num)]
  norm_num

/-- The hypotheses of the theorems above are met by this tube. -/
example : "316L" ∈ stressCols false ∧ (∀ b ∈ strengthEnds "316L", (68 : ℝ) < b) ∧
    Flange.IsDegC reg (.quantity ⟨20, PUnit.degC, 0⟩) 20 ∧ ∃ row ∈ Data.materialRows, row.1 = "316L" := by
  refine ⟨by decide, ?_, ⟨rfl, by norm_num [PUnit.degC]⟩, by decide⟩
  intro b hb
  simp [strengthEnds] at hb
  subst hb
  norm_num

theorem ex_flow_dlf : dynamicLoadFactor (.quantity ⟨(6625 : ℕ) / 1000 - 2 * ((432 : ℕ) / 1000), PUnit.inch, reg.id⟩)
    (.quantity ⟨(6625 : ℕ) / 1000, PUnit.inch, reg.id⟩) (.quantity ⟨2000, PUnit.meterPerSecond, reg'.id⟩)
    (.quantity ⟨(200 : ℕ), PUnit.gigapascal, reg.id⟩) (.quantity ⟨(79 : ℕ) / 10, PUnit.gramPerCC, reg.id⟩)
    ((28 : ℕ) / 100) 0.1 = .ok 2 := by
  have hargs : DlfArgs ⟨(6625 : ℕ) / 1000 - 2 * ((432 : ℕ) / 1000), PUnit.inch, reg.id⟩
      ⟨(6625 : ℕ) / 1000, PUnit.inch, reg.id⟩ ⟨2000, PUnit.meterPerSecond, reg'.id⟩
      ⟨(200 : ℕ), PUnit.gigapascal, reg.id⟩ ⟨(79 : ℕ) / 10, PUnit.gramPerCC, reg.id⟩ (5.761 * 0.0254) (6.625 * 0.0254)
      2000 200000000000 7900 ((28 : ℕ) / 100) reg.id reg'.id := by
    refine ⟨⟨rfl, rfl, ?_, rfl⟩, ⟨rfl, rfl, ?_, rfl⟩, ⟨rfl, rfl, ?_, rfl⟩, ⟨rfl, rfl, ?_, rfl⟩,
      ⟨rfl, rfl, ?_, rfl⟩, ?_, ?_, ?_, ?_, ?_, ?_⟩ <;>
    norm_num [PUnit.inch, PUnit.meterPerSecond, PUnit.base, PUnit.gigapascal, PUnit.gramPerCC]
  obtain ⟨f, hf, -, h2, -⟩ := C32_classification hargs (pm := 0.1) (by norm_num)
  obtain ⟨h0, h4⟩ := C32_Vcrit_fourth_power (i := 5.761 * 0.0254) (o := 6.625 * 0.0254) (E := 200000000000) (rho := 7900)
    (nu := (28 : ℕ) / 100) (by norm_num)
  have : Vcrit (5.761 * 0.0254) (6.625 * 0.0254) 200000000000 7900 ((28 : ℕ) / 100) < 1800 := by
    apply lt_of_pow_lt_pow_left₀ 4 (by norm_num)
    rw [h4]; norm_num
  rw [hf, h2.mpr (by linarith)]

/-- The safety factor for which the gas below just fits. -/
noncomputable def exSf : ℝ := 2 * (157 / 10 * (1000 * psiPa)) * 432 / (6193 * (65800000 / 9))

/-- The whole procedure on this tube with the gas of C69 (load factor 2): one update, and the limit is met. -/
example : ∃ p f, initialPressure (SD.tvGas SD.exP SD.exH) SD.serial reg reg' "6" "80" ⟨20, PUnit.degC, 0⟩ "316L" false exSf ()
      mechanism 0.1 true 0.0001 500 "reflected" = .ok (p, f) ∧ f.updates = 1 ∧ f.updates < (500 : ℤ).toNat ∧
    0 < exSf ∧ exSf ≤ 10 := by
  have hk : (1000 * psiPa) = 1000 * (0.45359237 * 9.80665 / 0.0254 ^ 2) := rfl
  have s0 : 0 < exSf := by unfold exSf; have := ksi_pos; positivity
  have s10 : exSf ≤ 10 := by unfold exSf; rw [hk]; norm_num
  obtain ⟨q, e, hv⟩ := C81_value (reg := reg) (sf := exSf) ex_cells.1 ex_cells.2 (by decide) ex_stress s0.ne'
  have hq : q.phys = 65800000 / 9 := by
    rw [hv.phys]; unfold exSf
    have : psiPa ≠ 0 := (pos_of_mul_pos_right ksi_pos (by norm_num)).ne'
    push_cast
    field_simp
    norm_num
  have hd := (C27_dimensions (reg := reg)).1 _ _ ex_cells.1 ex_cells.2 (by decide)
  obtain ⟨g1, g2, g3⟩ := (C41_getters_string_partial (reg := reg)).1 (grade := "316L") (grp := "2.3") (e := 200) (d := 79)
    (p := 28) (by decide)
  have hpa : q.convert PUnit.pascal = .ok ⟨65800000 / 9, PUnit.pascal, q.reg⟩ := by
    rw [convert_any (by rw [hv.dim]; rfl), hq]; simp [PUnit.pascal, PUnit.base]
  have hsh : ∀ m : ℝ, gasShock (SD.tvGas SD.exP SD.exH) SD.serial reg' ⟨20, PUnit.degC, 0⟩ () mechanism ⟨m, PUnit.atm, reg'.id⟩ =
      .ok ⟨⟨2000, PUnit.meterPerSecond, reg'.id⟩, SD.exP 2100 1.8, 32900000 / 9⟩ := by
    intro m
    have e3 : SD.exP SD.exTg 9 = 32900000 / 9 := by norm_num [SD.exP]
    have := SD.ex_shock (SD.tvGas_isTV SD.exP SD.exH) SD.serial_fair (T := 293.15) (P := m * 101325) (reg' := reg') (reg := reg')
      (species := ()) (mechanism := mechanism) (qT := ⟨20, PUnit.degC, 0⟩) (qP := ⟨m, PUnit.atm, reg'.id⟩) (by norm_num)
      ⟨rfl, by norm_num [PUnit.degC]⟩ ⟨rfl, by norm_num [PUnit.atm]⟩
    unfold gasShock
    rw [this, ok_bind, (SD.tvGas_isTV SD.exP SD.exH).P, (SD.tvGas_isTV SD.exP SD.exH).P, e3]
  refine ⟨q, ⟨⟨1, PUnit.atm, reg'.id⟩, 2, 0, 1, [⟨1, PUnit.atm, reg'.id⟩, ⟨1, PUnit.atm, reg'.id⟩]⟩, ?_, rfl, (by norm_num : 1 < 500),
    s0, s10⟩
  simp only [initialPressure, e, hd, ok_bind, hpa, g1, g2, g3]
  have hsearch : initialPressureSearch (SD.tvGas SD.exP SD.exH) SD.serial reg'
      (.quantity ⟨(6625 : ℕ) / 1000 - 2 * ((432 : ℕ) / 1000), PUnit.inch, reg.id⟩)
      (.quantity ⟨(6625 : ℕ) / 1000, PUnit.inch, reg.id⟩) ⟨20, PUnit.degC, 0⟩ () mechanism
      ⟨65800000 / 9, PUnit.pascal, q.reg⟩ (.quantity ⟨(200 : ℕ), PUnit.gigapascal, reg.id⟩)
      (.quantity ⟨(79 : ℕ) / 10, PUnit.gramPerCC, reg.id⟩) ((28 : ℕ) / 100) 0.1 true 0.0001 500 "reflected" =
      .ok ⟨⟨1, PUnit.atm, reg'.id⟩, 2, 0, 1, [⟨1, PUnit.atm, reg'.id⟩, ⟨1, PUnit.atm, reg'.id⟩]⟩ := by
    unfold initialPressureSearch maxInitialPressure
    rw [if_neg (by simp)]
    simp only [hsh, ok_bind, ex_flow_dlf]
    rw [if_neg (by norm_num), show (500 : ℤ).toNat = 498 + 1 + 1 from rfl, search, if_pos (by norm_num [abs_lt, lt_abs])]
    have e1 : Quantity.scale (65800000 / 9) ⟨1, PUnit.atm, reg'.id⟩ = .ok ⟨65800000 / 9 * 1, PUnit.atm, reg'.id⟩ := by
      simp [Quantity.scale, noOffset, PUnit.atm]
    have e2 : (⟨65800000 / 9 * 1, PUnit.atm, reg'.id⟩ : Quantity).divNum (2 * (32900000 / 9)) =
        .ok ⟨1, PUnit.atm, reg'.id⟩ := by
      simp [Quantity.divNum, noOffset, PUnit.atm]
      norm_num
    have e3 : (⟨⟨2000, PUnit.meterPerSecond, reg'.id⟩, SD.exP 2100 1.8, 32900000 / 9⟩ : Shock).selected "reflected" =
        32900000 / 9 := by
      unfold Shock.selected
      rw [if_neg (by decide)]
    have e4 : ((32900000 / 9 * 2 - 65800000 / 9) / (65800000 / 9) : ℝ) = 0 := by norm_num
    simp only [e1, e2, ok_bind, hsh, loopDlf, if_true, ex_flow_dlf, e3, e4]
    rw [if_neg (by norm_num), search, if_neg (by norm_num)]
    rfl
  rw [hsearch, ok_bind]

end Pypbomb.Workflow
