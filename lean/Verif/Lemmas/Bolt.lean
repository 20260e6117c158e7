import Verif.Lemmas.Pint
import Verif.Model.Bolt

namespace Pypbomb.Bolt
open Quantity

/-- Dimension of `1/in`. -/
abbrev perLen : Dim := Dim.one.div Dim.length

variable {qn qL qd qb qs qt qk qe qj : Quantity} {n L d b s t k e j : ℝ} {r : ℕ}

theorem shearArea_eval (hn : HasVal qn perLen n r) (hL : HasVal qL Dim.length L r)
    (hd : HasVal qd Dim.length d r) (hb : HasVal qb Dim.length b r) (hs : HasVal qs Dim.length s r)
    (n0 : n ≠ 0) :
    ∃ q, shearArea qn qL qd qb qs = .ok q ∧
      HasVal q Dim.area (Real.pi * n * L * d * (1 / (2 * n) + 0.57735 * (b - s))) r := by
  obtain ⟨c1, e1, h1, -⟩ := scale_spec Real.pi hn
  obtain ⟨c2, e2, h2⟩ := mul_spec h1 hL
  obtain ⟨c3, e3, h3⟩ := mul_spec h2 hd
  obtain ⟨c4, e4, h4, -⟩ := scale_spec 2 hn
  obtain ⟨c5, e5, h5⟩ := rdiv_spec 1 h4 (mul_ne_zero two_ne_zero n0)
  obtain ⟨c6, e6, h6, -⟩ := sub_spec hb hs
  obtain ⟨c7, e7, h7, -⟩ := scale_spec 0.57735 h6
  obtain ⟨c8, e8, h8, -⟩ := add_spec (h5.cast (e := Dim.length) (by dims) rfl) h7
  obtain ⟨c9, e9, h9⟩ := mul_spec h3 h8
  refine ⟨c9, ?_, h9.cast (by dims) rfl⟩
  simp only [shearArea, e1, e2, e3, e4, e5, e6, e7, e8, e9, ok_bind]

/-- The tensile stress area formula selected by the bolt strength. -/
noncomputable def tensileVal (sb bd es n : ℝ) : ℝ :=
  if sb < 100000 * psiPa then Real.pi / 4 * (bd - 0.9742785 / n) ^ 2
  else Real.pi * (es / 2 - 0.16238 / n) ^ 2

theorem tensileArea_eval {reg : Registry} {sb : ℝ} {qsb : Quantity}
    (hsb : HasVal qsb Dim.pressure sb reg.id)
    (hb : HasVal qb Dim.length b reg.id) (he : HasVal qe Dim.length e reg.id)
    (hn : HasVal qn perLen n reg.id) (n0 : n ≠ 0) :
    ∃ q, tensileArea reg qsb qb qe qn = .ok q ∧ HasVal q Dim.area (tensileVal sb b e n) reg.id := by
  have hlt : qsb.lt ⟨100000, PUnit.psi, reg.id⟩ = .ok (decide (sb < 100000 * psiPa)) :=
    lt_spec hsb (lit_spec 100000 PUnit.psi reg.id rfl)
  by_cases hc : sb < 100000 * psiPa
  · rw [decide_eq_true hc] at hlt
    obtain ⟨c1, e1, h1⟩ := rdiv_spec 0.9742785 hn n0
    obtain ⟨c2, e2, h2, -⟩ := sub_spec hb (h1.cast (e := Dim.length) (by dims) rfl)
    obtain ⟨c3, e3, h3⟩ := sq_spec h2
    obtain ⟨c4, e4, h4, -⟩ := scale_spec (Real.pi / 4) h3
    refine ⟨c4, ?_, h4.cast (by dims) (by rw [tensileVal, if_pos hc])⟩
    simp only [tensileArea, hlt, e1, e2, e3, e4, ok_bind, if_true]
  · rw [decide_eq_false hc] at hlt
    obtain ⟨c0, e0, h0, -⟩ := divNum_spec (k := 2) two_ne_zero he
    obtain ⟨c1, e1, h1⟩ := rdiv_spec 0.16238 hn n0
    obtain ⟨c2, e2, h2, -⟩ := sub_spec h0 (h1.cast (e := Dim.length) (by dims) rfl)
    obtain ⟨c3, e3, h3⟩ := sq_spec h2
    obtain ⟨c4, e4, h4, -⟩ := scale_spec Real.pi h3
    refine ⟨c4, ?_, h4.cast (by dims) (by rw [tensileVal, if_neg hc])⟩
    simp only [tensileArea, hlt, e0, e1, e2, e3, e4, ok_bind, Bool.false_eq_true, if_false]

theorem minEngagement_eval (ht : HasVal qt Dim.area t r) (hk : HasVal qk Dim.length k r)
    (he : HasVal qe Dim.length e r) (hn : HasVal qn perLen n r) (hj : HasVal qj Dim.one j r)
    (h0 : Real.pi * k * (1 / 2 + 0.57735 * n * (e - k)) ≠ 0) :
    ∃ q, minEngagement qt qk qe qn qj = .ok q ∧
      HasVal q Dim.length (2 * t / (Real.pi * k * (1 / 2 + 0.57735 * n * (e - k))) * j) r := by
  obtain ⟨c1, e1, h1, -⟩ := scale_spec 2 ht
  obtain ⟨c2, e2, h2, -⟩ := scale_spec Real.pi hk
  obtain ⟨c3, e3, h3, -⟩ := scale_spec 0.57735 hn
  obtain ⟨c4, e4, h4, -⟩ := sub_spec he hk
  obtain ⟨c5, e5, h5⟩ := mul_spec h3 h4
  obtain ⟨c6, e6, h6⟩ := addNum_spec (1 / 2) (h5.cast (e := Dim.one) (by dims) rfl)
  obtain ⟨c7, e7, h7⟩ := mul_spec h2 h6
  obtain ⟨c8, e8, h8⟩ := div_spec h1 h7 h0
  obtain ⟨c9, e9, h9⟩ := mul_spec h8 hj
  refine ⟨c9, ?_, h9.cast (by dims) rfl⟩
  simp only [minEngagement, e1, e2, e3, e4, e5, e6, e7, e8, e9, ok_bind]

/-- The table entries used for a thread, in inches and threads per inch. -/
structure Lookup (size cls : String) (kn es en ds bd : ℝ) (N : ℕ) : Prop where
  kn : internal.get "minor diameter max" size (cls ++ "B") = .ok kn
  es : external.get "pitch diameter min" size (cls ++ "A") = .ok es
  en : internal.get "pitch diameter max" size (cls ++ "B") = .ok en
  ds : external.get "major diameter min" size (cls ++ "A") = .ok ds
  bd : external.get "basic diameter" size (cls ++ "A") = .ok bd
  n : parseDigits (splitLast '-' size) = some N

variable {kn es en ds bd : ℝ} {N : ℕ}

/-- Screw thread shear area for engagement `L` (SI) of a thread given in inches. -/
noncomputable def shearVal (L kn es : ℝ) (N : ℕ) : ℝ :=
  Real.pi * L * (kn * 0.0254) * (1 / 2 + 0.57735 * N * (es - kn))

/-- Plate thread shear area for engagement `L` (SI). -/
noncomputable def plateVal (L ds en : ℝ) (N : ℕ) : ℝ :=
  Real.pi * L * (ds * 0.0254) * (1 / 2 + 0.57735 * N * (ds - en))

theorem inch_val (x : ℝ) (r : ℕ) : HasVal ⟨x, PUnit.inch, r⟩ Dim.length (x * 0.0254) r :=
  (lit_spec x PUnit.inch r rfl).cast rfl (by norm_num [PUnit.inch])

theorem perInch_val (x : ℝ) (r : ℕ) : HasVal ⟨x, PUnit.perInch, r⟩ perLen (x / 0.0254) r :=
  (lit_spec x PUnit.perInch r rfl).cast rfl (by
    norm_num [PUnit.perInch, PUnit.inch, PUnit.div, PUnit.dimensionless, PUnit.base]; ring)

theorem checkArg_ok {q : Quantity} {kind : String} {dk : Dim}
    (hk : supportedDims.lookup kind = some dk) {v : ℝ} (h : HasVal q dk v r) (hv : 0 ≤ v) :
    checkArg (.quantity q) kind = .ok q := by
  have := checkQ_ok (pos := true) hk h.dim (by rw [h.phys]; exact hv)
  simp only [checkArg, this, ok_bind]

theorem rereg_val {q : Quantity} {dk : Dim} {v : ℝ} (reg : Registry) (h : HasVal q dk v r) :
    HasVal (rereg reg q) dk v reg.id := ⟨h.dim, h.off, h.val, rfl⟩

/-- `calculate_stress_areas` evaluated: everything in SI values. -/
theorem stressAreas_eval {reg : Registry} {size cls : String} {qsb qsp qlen : Quantity}
    {sb sp L : ℝ} {r1 r2 r3 : ℕ} (hl : Lookup size cls kn es en ds bd N)
    (hsb : HasVal qsb Dim.pressure sb r1) (hsp : HasVal qsp Dim.pressure sp r2)
    (hlen : HasVal qlen Dim.length L r3) (sb0 : 0 ≤ sb) (sp0 : 0 < sp) (L0 : 0 < L)
    (n0 : 0 < N) (k0 : kn ≠ 0) (g1 : 1 / 2 + 0.57735 * (N : ℝ) * (es - kn) ≠ 0)
    (d0 : ds ≠ 0) (g2 : 1 / 2 + 0.57735 * (N : ℝ) * (ds - en) ≠ 0) :
    ∃ a : Areas, stressAreas reg size cls (.quantity qsb) (.quantity qsp) (.quantity qlen) = .ok a ∧
      HasVal a.plate Dim.area (plateVal L ds en N) reg.id ∧
      HasVal a.screw Dim.area
        (min (shearVal L kn es N) (tensileVal sb (bd * 0.0254) (es * 0.0254) (N / 0.0254))) reg.id ∧
      HasVal a.minEngagement Dim.length
        (2 * tensileVal sb (bd * 0.0254) (es * 0.0254) (N / 0.0254) /
          (Real.pi * (kn * 0.0254) * (1 / 2 + 0.57735 * N * (es - kn))) *
          (shearVal L kn es N * sb / (plateVal L ds en N * sp))) reg.id ∧
      a.warned = decide (shearVal L kn es N <
        tensileVal sb (bd * 0.0254) (es * 0.0254) (N / 0.0254)) := by
  have hn : (N : ℝ) ≠ 0 := by exact_mod_cast n0.ne'
  have vn := perInch_val (N : ℝ) reg.id
  have vk := inch_val kn reg.id
  have ve := inch_val es reg.id
  have ven := inch_val en reg.id
  have vd := inch_val ds reg.id
  have vb := inch_val bd reg.id
  have vsb := rereg_val reg hsb
  have vsp := rereg_val reg hsp
  have vL := rereg_val reg hlen
  have hn' : (N : ℝ) / 0.0254 ≠ 0 := by positivity
  obtain ⟨qA, eA, hA⟩ := tensileArea_eval vsb vb ve vn hn'
  obtain ⟨qS, eS, hS⟩ := shearArea_eval vn vL vk ve vk hn'
  obtain ⟨qP, eP, hP⟩ := shearArea_eval vn vL vd vd ven hn'
  have hS' : HasVal qS Dim.area (shearVal L kn es N) reg.id := hS.cast rfl (by
    unfold shearVal; field_simp)
  have hP' : HasVal qP Dim.area (plateVal L ds en N) reg.id := hP.cast rfl (by
    unfold plateVal; field_simp)
  have hcmp := lt_spec hS' hA
  have p0 : plateVal L ds en N ≠ 0 := by
    unfold plateVal
    have := Real.pi_pos.ne'
    have := L0.ne'
    positivity
  obtain ⟨q1, e1, h1⟩ := mul_spec hS' vsb
  obtain ⟨q2, e2, h2⟩ := mul_spec hP' vsp
  obtain ⟨q3, e3, h3⟩ := div_spec h1 h2 (mul_ne_zero p0 sp0.ne')
  have gE : 1 / 2 + 0.57735 * (N / 0.0254 : ℝ) * (es * 0.0254 - kn * 0.0254) =
      1 / 2 + 0.57735 * (N : ℝ) * (es - kn) := by field_simp
  obtain ⟨q4, e4, h4⟩ := minEngagement_eval hA vk ve vn (h3.cast (e := Dim.one) (by dims) rfl)
    (by rw [gE]
        have := Real.pi_pos.ne'
        positivity)
  rw [gE] at h4
  refine ⟨⟨qP, if decide (shearVal L kn es N <
      tensileVal sb (bd * 0.0254) (es * 0.0254) (N / 0.0254)) = true then qS else qA, q4,
      decide (shearVal L kn es N < tensileVal sb (bd * 0.0254) (es * 0.0254) (N / 0.0254))⟩,
      ?_, hP', ?_, h4, rfl⟩
  · simp only [stressAreas, checkArg_ok lookup_pressure hsb sb0, checkArg_ok lookup_pressure hsp sp0.le,
      checkArg_ok lookup_length hlen L0.le, ok_bind, hl.kn, hl.es, hl.en, hl.ds, hl.bd, hl.n, eA, eS,
      hcmp, eP, e1, e2, e3, e4]
  · by_cases hc : shearVal L kn es N < tensileVal sb (bd * 0.0254) (es * 0.0254) (N / 0.0254)
    · simp only [hc, decide_true, if_true]
      rw [min_eq_left hc.le]; exact hS'
    · simp only [hc, decide_false, Bool.false_eq_true, if_false]
      rw [min_eq_right (not_lt.mp hc)]; exact hA

end Pypbomb.Bolt

namespace Pypbomb.Bolt

/-! ### The tables -/

/-- Geometric facts needed of a pair of rows, in integers (lengths in 0.0001 inch). -/
def geomOK (e i : List ℕ) (n : ℕ) : Bool :=
  match e, i with
  | [bd, ds, _, _, es, _], [_, _, kn, _, en, _] =>
    decide (0 < n ∧ 0 < kn ∧ 0 < ds ∧ 0 < es ∧
      2 * 57735 * n * kn < 10 ^ 9 + 2 * 57735 * n * es ∧
      2 * 57735 * n * en < 10 ^ 9 + 2 * 57735 * n * ds ∧
      9742785 < bd * n * 1000 ∧ 2 * 16238 < es * n * 10)
  | _, _ => false

/-- `plate area ≤ 2.08 * shear area` per inch of engagement, in integers. -/
def strongOK (e i : List ℕ) (n : ℕ) : Bool :=
  match e, i with
  | [_, ds, _, _, es, _], [_, _, kn, _, en, _] =>
    decide (100 * (ds * (10 ^ 9 + 2 * 57735 * n * (ds : ℤ) - 2 * 57735 * n * en)) ≤
      208 * (kn * (10 ^ 9 + 2 * 57735 * n * (es : ℤ) - 2 * 57735 * n * kn)))
  | _, _ => false

/-- Check `p` of every pair of rows with the same size and the same class number. -/
def tableCheck (p : List ℕ → List ℕ → ℕ → Bool) : Bool :=
  Data.externalRows.all fun e => Data.internalRows.all fun i =>
    !(decide (e.1 = i.1)) || !(decide (e.2.1 = "2A" ∧ i.2.1 = "2B" ∨ e.2.1 = "3A" ∧ i.2.1 = "3B")) ||
      (match parseDigits (splitLast '-' e.1) with
        | some n => p e.2.2 i.2.2 n
        | none => false)

set_option maxRecDepth 100000 in
theorem tables_geom : tableCheck geomOK = true := by decide +kernel

set_option maxRecDepth 100000 in
theorem tables_strong : tableCheck strongOK = true := by decide +kernel

/-- External rows have class 2A or 3A. -/
def extClassOK : Bool := Data.externalRows.all fun e => decide (e.2.1 = "2A" ∨ e.2.1 = "3A")

set_option maxRecDepth 100000 in
theorem extClassOK_true : extClassOK = true := by decide +kernel

theorem append_cancel {a : String} (c : Char) (s : String) (h : a ++ s = String.singleton c ++ s) :
    a = String.singleton c := by
  have := congrArg String.toList h
  rw [String.toList_append, String.toList_append] at this
  exact String.toList_inj.mp (List.append_cancel_right this)

/-- Rows in the two tables that agree in size and class number satisfy a checked fact. -/
theorem check_rows {p : List ℕ → List ℕ → ℕ → Bool} (hp : tableCheck p = true)
    {size cls : String} {ev iv : List ℕ}
    (he : (size, cls ++ "A", ev) ∈ Data.externalRows) (hi : (size, cls ++ "B", iv) ∈ Data.internalRows) :
    ∃ n, parseDigits (splitLast '-' size) = some n ∧ p ev iv n = true := by
  have hc := List.all_eq_true.mp extClassOK_true _ he
  rw [decide_eq_true_eq] at hc
  have h := List.all_eq_true.mp (List.all_eq_true.mp hp _ he) _ hi
  have hcls : cls ++ "A" = "2A" ∧ cls ++ "B" = "2B" ∨ cls ++ "A" = "3A" ∧ cls ++ "B" = "3B" := by
    rcases hc with hc | hc
    · left
      have : cls = String.singleton '2' := append_cancel '2' "A" (hc.trans (by decide))
      subst this; decide
    · right
      have : cls = String.singleton '3' := append_cancel '3' "A" (hc.trans (by decide))
      subst this; decide
  simp only [decide_true, Bool.not_true, Bool.false_or, decide_eq_true hcls] at h
  cases hp : parseDigits (splitLast '-' size) with
  | none => rw [hp] at h; simp at h
  | some n => rw [hp] at h; exact ⟨n, rfl, h⟩

end Pypbomb.Bolt
