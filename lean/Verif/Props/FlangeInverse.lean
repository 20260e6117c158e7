/-
C92: the temperature limit of a flange falls with the pressure and rises with the class.
-/
import Verif.Props.Flange

namespace Pypbomb.Flange

open Pypbomb

variable {u u' : Registry} {material cls cls' : String} {curve curve' : List (ℝ × ℝ)} {x x' : QIn} {p p' : ℝ}

/-- Rows at strictly increasing temperatures and strictly decreasing ratings. -/
def Falls (l : List (ℝ × ℝ)) : Prop := l.Pairwise fun a b => a.1 < b.1 ∧ b.2 < a.2

theorem pairwise_of_inc {l : List (ℝ × ℝ)} (h : Inc l) : l.Pairwise fun a b => a.1 < b.1 := by
  have hch : l.IsChain (fun a b => a.1 < b.1) := by
    induction l with
    | nil => exact .nil
    | cons a l ih =>
      cases l with
      | nil => exact .singleton _
      | cons b l => exact .cons_cons h.1 (ih h.2)
  have hT : IsTrans (ℝ × ℝ) fun a b => a.1 < b.1 := ⟨fun _ _ _ => lt_trans⟩
  exact List.isChain_iff_pairwise.mp hch

theorem pairwise_of_sdec {l : List (ℝ × ℝ)} (h : SDec l) : l.Pairwise fun a b => b.2 < a.2 := by
  have hch : l.IsChain (fun a b => b.2 < a.2) := by
    induction l with
    | nil => exact .nil
    | cons a l ih =>
      cases l with
      | nil => exact .singleton _
      | cons b l => exact .cons_cons h.1 (ih h.2)
  have hT : IsTrans (ℝ × ℝ) fun a b => b.2 < a.2 := ⟨fun _ _ _ h1 h2 => lt_trans h2 h1⟩
  exact List.isChain_iff_pairwise.mp hch

theorem Shape.falls {D Z : List (ℝ × ℝ)} {m : ℝ} (h : Shape curve m D Z) (hinc : Inc curve) :
    Falls ((-29, m) :: D) := by
  have h1 := pairwise_of_inc hinc
  rw [h.eq] at h1
  have hs : List.Sublist ((-29, m) :: D) ((-29, m) :: (38, m) :: (D ++ Z)) :=
    .cons_cons _ (.cons _ (List.sublist_append_left _ _))
  have h2 := h1.sublist hs
  exact (List.Pairwise.and h2 (pairwise_of_sdec h.sdec))

/-- The line through two neighbouring rows, read at a pressure. -/
noncomputable def chord (a b : ℝ × ℝ) (p : ℝ) : ℝ := b.1 + (a.1 - b.1) / (a.2 - b.2) * (p - b.2)

theorem chord_between {a b : ℝ × ℝ} (h : a.1 < b.1) (h1 : b.2 ≤ p) (h2 : p < a.2) :
    a.1 < chord a b p ∧ chord a b p ≤ b.1 := by
  have hs0 : 0 ≤ (p - b.2) / (a.2 - b.2) := div_nonneg (by linarith) (by linarith)
  have hs1 : (p - b.2) / (a.2 - b.2) < 1 := by rw [div_lt_one (by linarith)]; linarith
  have e : chord a b p = b.1 + (a.1 - b.1) * ((p - b.2) / (a.2 - b.2)) := by unfold chord; ring
  rw [e]
  constructor <;> nlinarith

/-- On a falling table the chord at a higher pressure is lower. -/
theorem chord_antitone {l pre pre' suf suf' : List (ℝ × ℝ)} {a b a' b' : ℝ × ℝ} (hl : Falls l)
    (e : l = pre ++ a :: b :: suf) (e' : l = pre' ++ a' :: b' :: suf')
    (h1 : b.2 ≤ p) (h2 : p < a.2) (h1' : b'.2 ≤ p') (h2' : p' < a'.2) (hlt : p < p') :
    chord a' b' p' < chord a b p := by
  have ga : l[pre.length]? = some a := by rw [e]; simp
  have gb : l[pre.length + 1]? = some b := by rw [e]; simp
  have ga' : l[pre'.length]? = some a' := by rw [e']; simp
  have gb' : l[pre'.length + 1]? = some b' := by rw [e']; simp
  have pw : ∀ {i j : ℕ} {c d : ℝ × ℝ}, l[i]? = some c → l[j]? = some d → i < j → c.1 < d.1 ∧ d.2 < c.2 := by
    intro i j c d hi hj hij
    obtain ⟨hi', rfl⟩ := List.getElem?_eq_some_iff.mp hi
    obtain ⟨hj', rfl⟩ := List.getElem?_eq_some_iff.mp hj
    exact List.pairwise_iff_getElem.mp hl i j hi' hj' hij
  have hab := pw ga gb (by omega)
  have hab' := pw ga' gb' (by omega)
  have k := chord_between hab.1 h1 h2
  have k' := chord_between hab'.1 h1' h2'
  rcases lt_trichotomy pre'.length pre.length with h | h | h
  · have hb : b'.1 ≤ a.1 := by
      rcases Nat.eq_or_lt_of_le (Nat.succ_le_of_lt h) with h | h
      · rw [← h] at ga
        rw [Nat.succ_eq_add_one, gb'] at ga
        cases ga; exact le_rfl
      · exact (pw gb' ga h).1.le
    linarith
  · rw [h] at ga' gb'
    rw [ga] at ga'; rw [gb] at gb'
    cases ga'; cases gb'
    unfold chord
    have hn : (a.1 - b.1) / (a.2 - b.2) < 0 := div_neg_of_neg_of_pos (by linarith) (by linarith)
    nlinarith
  · have hb : a'.2 ≤ b.2 := by
      rcases Nat.eq_or_lt_of_le (Nat.succ_le_of_lt h) with h | h
      · rw [← h] at ga'
        rw [Nat.succ_eq_add_one, gb] at ga'
        cases ga'; exact le_rfl
      · exact (pw gb ga' h).2.le
    linarith

/-- Where a class has unrated rows, the rated ones end at 538 degC (1.4 bar). -/
theorem low_rows : ∀ tb ∈ ratingTables, ∀ i < 7, (∃ a ∈ intCurve i tb.2.2, a.2 = 0) →
    ∀ a ∈ intCurve i tb.2.2, 0 < a.2 → a.1 ≤ 538 ∧ 14 ≤ a.2 := by
  decide +kernel

/-- What `get_max_temperature` returns strictly between 0 bar and the largest rating: a point on the chord between two
neighbouring rated rows (the -29 degC row counting as the neighbour of the 50 degC one) or, below the lowest rating of a
class with unrated rows, a point on the chord to (816 degC, 0 bar). -/
theorem maxTemperature_chord (hc : IsCurve material cls curve) (hx : IsBar u x p) (p0 : 0 < p)
    (hlo : ∃ r ∈ curve, r.2 ≤ p) (hhi : ∃ r ∈ curve, p < r.2) :
    ∃ m D Z T, Shape curve m D Z ∧ Falls ((-29, m) :: D) ∧ p < m ∧
      getMaxTemperature u cls x (.str material) = .ok ⟨T + 27315 / 100, PUnit.kelvin, outReg u x⟩ ∧
      ((∃ pre a b suf, (-29, m) :: D = pre ++ a :: b :: suf ∧ b.2 ≤ p ∧ p < a.2 ∧ T = chord a b p) ∨
        (p < 1.4 ∧ T = 816 - 278 / 1.4 * p ∧ ∀ d ∈ D, d.1 ≤ 538 ∧ 1.4 ≤ d.2)) := by
  obtain ⟨tb, ht, i, hi7, hi, rfl⟩ := hc.table
  obtain ⟨m, D, Z, hs⟩ := curve_shape ht.1 hi7
  obtain ⟨hinc, hdec, hlen⟩ := hc.facts
  obtain ⟨r', hr', hrp'⟩ := hhi
  have hpm : p < m := hrp'.trans_le (hs.le ⟨hinc, hdec⟩ hr')
  have hT : getMaxTemperature u cls x (.str material) = _ :=
    (getMaxTemperature_eval hc hx).1 hlo ⟨r', hr', hrp'.le⟩
  by_cases hr : ∃ r ∈ D, r.2 ≤ p
  · obtain ⟨pre, a, b, suf, hE, h1, h2⟩ := sdec_segment hs.sdec hpm hr
    rw [interpolate_inv hs hE h1 h2] at hT
    exact ⟨m, D, Z, _, hs, hs.falls hinc, hpm, hT, .inl ⟨pre, a, b, suf, hE, h1, h2, rfl⟩⟩
  · push Not at hr
    obtain ⟨r, hrm, hrp⟩ := hlo
    have hr0 : r.2 = 0 := by
      have hr2 := hrm
      rw [hs.eq, List.mem_cons, List.mem_cons, List.mem_append] at hr2
      rcases hr2 with rfl | rfl | h | h
      · exact absurd hrp (not_le.mpr hpm)
      · exact absurd hrp (not_le.mpr hpm)
      · exact absurd hrp (not_le.mpr (hr r h))
      · exact hs.zero r h
    have hz : ∃ a ∈ intCurve i tb.2.2, a.2 = 0 := by
      rw [curveOf_eq] at hrm
      obtain ⟨a, ha, rfl⟩ := List.mem_map.mp hrm
      refine ⟨a, ha, ?_⟩
      simp only [toReal] at hr0
      have : (a.2 : ℝ) = 0 := by linarith
      exact_mod_cast this
    obtain ⟨k1, k2, k3⟩ := low_end tb ht.1 i hi7 hz
    have hD : ∀ d ∈ D, d.1 ≤ 538 ∧ 1.4 ≤ d.2 := by
      intro d hd
      have hm : d ∈ curveOf i tb.2.2 := by rw [hs.eq]; simp [hd]
      have h0 := hs.pos d hd
      rw [curveOf_eq] at hm
      obtain ⟨a, ha, rfl⟩ := List.mem_map.mp hm
      simp only [toReal] at h0 ⊢
      have ha0 : 0 < a.2 := by
        have : (0 : ℝ) < a.2 := by linarith
        exact_mod_cast this
      obtain ⟨e1, e2⟩ := low_rows tb ht.1 i hi7 hz a ha ha0
      have e1 : (a.1 : ℝ) ≤ 538 := by exact_mod_cast e1
      have e2 : (14 : ℝ) ≤ a.2 := by exact_mod_cast e2
      exact ⟨e1, by linarith⟩
    have hcv : curveOf i tb.2.2 = ((intCurve i tb.2.2).take 16).map toReal ++ (538, 1.4) :: (550, 0) ::
        ((intCurve i tb.2.2).drop 18).map toReal := by
      conv_lhs => rw [curveOf_eq, ← List.take_append_drop 16 (intCurve i tb.2.2), k2]
      simp only [List.map_append, List.map_cons, toReal]
      norm_num
    have m1 : ((538, 1.4) : ℝ × ℝ) ∈ curveOf i tb.2.2 := by rw [hcv]; simp
    have p1 : p < 1.4 := by
      rw [hs.eq, List.mem_cons, List.mem_cons, List.mem_append] at m1
      rcases m1 with h | h | h | h
      · norm_num at h
      · norm_num at h
      · exact hr _ h
      · have := hs.zero _ h; norm_num at this
    have hval : interpolate (p * 100000) (((curveOf i tb.2.2).map si).map Prod.swap) =
        816 - 278 / 1.4 * p + 27315 / 100 := by
      rw [curveOf_eq]
      have hsort := List.take_append_drop 11
        (((intCurve i tb.2.2).map Prod.swap).insertionSort (fun a b : ℕ × ℤ => a.1 ≤ b.1))
      rw [k1] at hsort
      rw [inv_segment hsort.symm (by simpa using p0.le) (by norm_num at p1 ⊢; linarith)]
      norm_num
      ring
    rw [hval] at hT
    exact ⟨m, D, Z, _, hs, hs.falls hinc, hpm, hT, .inr ⟨p1, rfl, hD⟩⟩

theorem Shape.cold {D Z D' Z' : List (ℝ × ℝ)} {m m' : ℝ} (h : Shape curve m D Z) (h' : Shape curve m' D' Z') :
    m = m' ∧ D = D' := by
  have e := h.eq.symm.trans h'.eq
  simp only [List.cons.injEq, Prod.mk.injEq, true_and] at e
  refine ⟨e.1, ?_⟩
  have hD : ∀ {D Z : List (ℝ × ℝ)} {m : ℝ}, Shape curve m D Z →
      (D ++ Z).filter (fun a => decide (0 < a.2)) = D := by
    intro D Z m h
    rw [List.filter_append, List.filter_eq_self.mpr (fun a ha => by simpa using h.pos a ha),
      List.filter_eq_nil_iff.mpr (fun a ha => by simp [h.zero a ha]), List.append_nil]
  rw [← hD h, ← hD h', e.2.2]

/-- C92: between 0 bar and the largest rating of a class, a higher pressure gets a strictly lower temperature limit, for
every material, class and pair of units. -/
theorem C92_antitone (hc : IsCurve material cls curve) (hx : IsBar u x p) (hx' : IsBar u' x' p') (p0 : 0 < p)
    (hlt : p < p') (hlo : ∃ r ∈ curve, r.2 ≤ p) (hhi : ∃ r ∈ curve, p' < r.2) :
    ∃ q q', getMaxTemperature u cls x (.str material) = .ok q ∧
      getMaxTemperature u' cls x' (.str material) = .ok q' ∧ q.unit = PUnit.kelvin ∧ q'.unit = PUnit.kelvin ∧
      q'.phys < q.phys := by
  obtain ⟨r, hr, hrp⟩ := hlo
  obtain ⟨r', hr', hrp'⟩ := hhi
  obtain ⟨m, D, Z, T, hs, hf, hpm, e, h⟩ := maxTemperature_chord hc hx p0 ⟨r, hr, hrp⟩ ⟨r', hr', hlt.trans hrp'⟩
  obtain ⟨m', D', Z', T', hs', -, hpm', e', h'⟩ :=
    maxTemperature_chord hc hx' (p0.trans hlt) ⟨r, hr, hrp.trans hlt.le⟩ ⟨r', hr', hrp'⟩
  obtain ⟨rfl, rfl⟩ := hs.cold hs'
  refine ⟨_, _, e, e', rfl, rfl, ?_⟩
  rw [phys_kelvin, phys_kelvin]
  suffices T' < T by linarith
  rcases h with ⟨pre, a, b, suf, hE, h1, h2, rfl⟩ | ⟨h1, rfl, hD⟩
  · rcases h' with ⟨pre', a', b', suf', hE', h1', h2', rfl⟩ | ⟨h1', -, hD⟩
    · exact chord_antitone hf hE hE' h1 h2 h1' h2' hlt
    · exfalso
      have hb : b ∈ D := by
        cases pre with
        | nil => simp only [List.nil_append, List.cons.injEq] at hE; rw [hE.2]; simp
        | cons c pre => simp only [List.cons_append, List.cons.injEq] at hE; rw [hE.2]; simp
      have := (hD b hb).2
      linarith
  · rcases h' with ⟨pre', a', b', suf', hE', h1', h2', rfl⟩ | ⟨h1', rfl, -⟩
    · have hb : b' ∈ D := by
        cases pre' with
        | nil => simp only [List.nil_append, List.cons.injEq] at hE'; rw [hE'.2]; simp
        | cons c pre => simp only [List.cons_append, List.cons.injEq] at hE'; rw [hE'.2]; simp
      have hb1 := (hD b' hb).1
      have hab : a'.1 < b'.1 := by
        rw [hE'] at hf
        exact ((List.pairwise_append.mp hf).2.1 |> List.rel_of_pairwise_cons <| (by simp)).1
      have := (chord_between hab h1' h2').2
      norm_num at h1 ⊢
      linarith
    · norm_num
      linarith

/-- Between two neighbouring rated rows from 50 degC on, the chord is the rating curve. -/
theorem chord_on {D Z pre suf : List (ℝ × ℝ)} {m : ℝ} {a b c : ℝ × ℝ} (h : Shape curve m D Z) (hinc : Inc curve)
    (hE : (-29, m) :: D = (c :: pre) ++ a :: b :: suf) (h1 : b.2 ≤ p) (h2 : p < a.2) :
    On curve (chord a b p) p ∧ 50 ≤ a.1 := by
  simp only [List.cons_append, List.cons.injEq] at hE
  obtain ⟨-, hD⟩ := hE
  have hcv : curve = ((-29, m) :: (38, m) :: pre) ++ a :: b :: (suf ++ Z) := by
    rw [h.eq, hD]; simp
  have hpw := pairwise_of_inc hinc
  have hab : a.1 < b.1 := by
    rw [hcv] at hpw
    exact (List.pairwise_append.mp hpw).2.1 |> List.rel_of_pairwise_cons <| (by simp)
  have h50 : 50 ≤ a.1 := by
    obtain ⟨d, D', hD2, hd⟩ := h.head
    rw [h.eq, hD2] at hpw
    have ha : a ∈ d :: D' := by rw [← hD2, hD]; simp
    rcases List.mem_cons.mp ha with rfl | ha
    · exact hd.ge
    · have hp2 : (d :: (D' ++ Z)).Pairwise fun a b => a.1 < b.1 := hpw.tail.tail
      have := List.rel_of_pairwise_cons hp2 (a' := a) (by simp [ha])
      rw [hd] at this
      exact this.le
  obtain ⟨k1, k2⟩ := chord_between hab h1 h2
  refine ⟨⟨_, a, b, _, hcv, k1.le, k2, ?_⟩, h50⟩
  have e1 : b.1 - a.1 ≠ 0 := by linarith
  have e2 : a.2 - b.2 ≠ 0 := by linarith
  unfold chord
  field_simp
  ring

/-- All ratings of a class lie below the 50 degC rating of every larger one, whose ratings all exceed 1.4 bar. -/
theorem class_gap : ∀ tb ∈ ratingTables, ∀ i < 7, ∀ j < 7, i < j →
    (∀ b ∈ intCurve j tb.2.2, 14 < b.2 ∧ (b.1 = 50 → ∀ a ∈ intCurve i tb.2.2, a.2 < b.2) ∧
      ∃ a ∈ intCurve i tb.2.2, a.2 ≤ b.2) := by
  have h1 : ∀ tb ∈ ratingTables, ∀ j < 7, 0 < j → ∀ b ∈ intCurve j tb.2.2, 14 < b.2 := by decide +kernel
  have h2 : ∀ tb ∈ ratingTables, ∀ i < 7, ∀ j < 7, i < j → ∀ b ∈ intCurve j tb.2.2, b.1 = 50 →
      ∀ a ∈ intCurve i tb.2.2, a.2 < b.2 := by decide +kernel
  have h3 : ∀ tb ∈ ratingTables, ∀ i < 7, ∀ j < 7, i < j → ∀ b ∈ intCurve j tb.2.2,
      (intCurve i tb.2.2).any (fun a => decide (a.2 ≤ b.2)) = true := by decide +kernel
  intro tb ht i hi j hj hij b hb
  refine ⟨h1 tb ht j hj (by omega) b hb, h2 tb ht i hi j hj hij b hb, ?_⟩
  obtain ⟨a, ha, hab⟩ := List.any_eq_true.mp (h3 tb ht i hi j hj hij b hb)
  exact ⟨a, ha, by simpa using hab⟩

/-- C92: at every pressure at which two classes of a material both have a limit, the larger class may be strictly
hotter. -/
theorem C92_class {n n' : ℕ} (hc : IsCurve material cls curve) (hc' : IsCurve material cls' curve')
    (hn : (cls, n) ∈ classes) (hn' : (cls', n') ∈ classes) (hlt : n < n') (hx : IsBar u x p)
    (hlo : ∃ r ∈ curve', r.2 ≤ p) (hhi : ∃ r ∈ curve, p < r.2) :
    ∃ q q', getMaxTemperature u cls x (.str material) = .ok q ∧
      getMaxTemperature u cls' x (.str material) = .ok q' ∧ q.unit = PUnit.kelvin ∧ q'.unit = PUnit.kelvin ∧
      q.phys < q'.phys := by
  obtain ⟨tb, ht, i, hi7, hi, rfl⟩ := hc.table
  obtain ⟨tb', ht', j, hj7, hj, rfl⟩ := hc'.table
  obtain rfl := table_unique ht ht'
  have hij := (class_order ht.1 hi hj hn hn').1.mp hlt
  have gap := class_gap tb ht.1 i hi7 j hj7 hij
  have big : ∀ r ∈ curveOf j tb.2.2, 1.4 < r.2 := by
    intro r hr
    rw [curveOf_eq] at hr
    obtain ⟨b, hb, rfl⟩ := List.mem_map.mp hr
    have : (14 : ℝ) < b.2 := by exact_mod_cast (gap b hb).1
    simp only [toReal]; linarith
  obtain ⟨r, hr, hrp⟩ := hlo
  obtain ⟨r', hr', hrp'⟩ := hhi
  have p14 : 1.4 < p := (big r hr).trans_le hrp
  have p0 : 0 < p := by norm_num at p14; linarith
  have hlo' : ∃ r ∈ curveOf i tb.2.2, r.2 ≤ p := by
    rw [curveOf_eq] at hr ⊢
    obtain ⟨b, hb, rfl⟩ := List.mem_map.mp hr
    obtain ⟨a, ha, hab⟩ := (gap b hb).2.2
    refine ⟨_, List.mem_map.mpr ⟨a, ha, rfl⟩, le_trans ?_ hrp⟩
    have : (a.2 : ℝ) ≤ b.2 := by exact_mod_cast hab
    simp only [toReal]; linarith
  -- the 50 degC row of the larger class is above the pressure
  have h50 : ∀ d ∈ curveOf j tb.2.2, d.1 = 50 → p < d.2 := by
    intro d hd hd1
    rw [curveOf_eq] at hd hr'
    obtain ⟨b, hb, rfl⟩ := List.mem_map.mp hd
    obtain ⟨a, ha, rfl⟩ := List.mem_map.mp hr'
    have hb1 : b.1 = 50 := by simp only [toReal] at hd1; exact_mod_cast hd1
    have : (a.2 : ℝ) < b.2 := by exact_mod_cast (gap b hb).2.1 hb1 a ha
    simp only [toReal] at hrp' ⊢; linarith
  have hhi' : ∃ d ∈ curveOf j tb.2.2, p < d.2 := by
    obtain ⟨m, D, Z, hs⟩ := curve_shape ht.1 hj7
    obtain ⟨d, D', rfl, hd⟩ := hs.head
    have hm : d ∈ curveOf j tb.2.2 := by rw [hs.eq]; simp
    exact ⟨d, hm, h50 d hm hd⟩
  obtain ⟨m, D, Z, T, hs, hf, hpm, e, h⟩ := maxTemperature_chord hc hx p0 hlo' ⟨r', hr', hrp'⟩
  obtain ⟨m', D', Z', T', hs', hf', hpm', e', h'⟩ := maxTemperature_chord hc' hx p0 ⟨r, hr, hrp⟩ hhi'
  obtain ⟨hinc, hdec, -⟩ := hc.facts
  obtain ⟨hinc', hdec', -⟩ := hc'.facts
  refine ⟨_, _, e, e', rfl, rfl, ?_⟩
  rw [phys_kelvin, phys_kelvin]
  suffices T < T' by linarith
  rcases h with ⟨pre, a, b, suf, hE, h1, h2, rfl⟩ | ⟨h1, -, -⟩
  swap
  · exact absurd h1 (not_lt.mpr p14.le)
  rcases h' with ⟨pre', a', b', suf', hE', h1', h2', rfl⟩ | ⟨h1', -, -⟩
  swap
  · exact absurd h1' (not_lt.mpr p14.le)
  obtain ⟨d', D1', hD', hd'⟩ := hs'.head
  cases pre' with
  | nil =>
    exfalso
    simp only [List.nil_append, List.cons.injEq] at hE'
    rw [hD', List.cons.injEq] at hE'
    obtain ⟨-, rfl, -⟩ := hE'
    have hm : d' ∈ curveOf j tb.2.2 := by rw [hs'.eq, hD']; simp
    linarith [h50 d' hm hd']
  | cons c' pre' =>
    obtain ⟨ho', ha'⟩ := chord_on hs' hinc' hE' h1' h2'
    have hab' : a'.1 < b'.1 := by
      rw [hE'] at hf'
      exact ((List.pairwise_append.mp hf').2.1 |> List.rel_of_pairwise_cons <| (by simp)).1
    have hT' := (chord_between hab' h1' h2').1
    have hab : a.1 < b.1 := by
      rw [hE] at hf
      exact ((List.pairwise_append.mp hf).2.1 |> List.rel_of_pairwise_cons <| (by simp)).1
    cases pre with
    | nil =>
      obtain ⟨d, D1, hD, hd⟩ := hs.head
      simp only [List.nil_append, List.cons.injEq] at hE
      rw [hD, List.cons.injEq] at hE
      obtain ⟨-, rfl, -⟩ := hE
      have := (chord_between hab h1 h2).2
      linarith
    | cons c pre =>
      obtain ⟨ho, -⟩ := chord_on hs hinc hE h1 h2
      obtain ⟨v, hv⟩ := ho.column ht.1 hj7
      have hlt := on_lt ht.1 hi7 hj7 hij ho hv
      by_contra hle
      have : npInterp (chord a b p) (curveOf j tb.2.2) ≤ npInterp (chord a' b' p) (curveOf j tb.2.2) :=
        npInterp_antitone hinc' hdec' (not_lt.mp hle)
      rw [← hv.eq_npInterp hinc', ← ho'.eq_npInterp hinc'] at this
      linarith

/-- Cases for C92: class 150 and class 300 flanges of 304 at 10 and at 12 bar, the latter also given in psi. -/
example : IsCurve "304" "150" (curveOf 0 Data.group21Rows) ∧ IsCurve "304" "300" (curveOf 1 Data.group21Rows) ∧
    ("150", 150) ∈ classes ∧ ("300", 300) ∈ classes ∧
    (∃ r ∈ curveOf 0 Data.group21Rows, r.2 ≤ (10 : ℝ)) ∧ (∃ r ∈ curveOf 0 Data.group21Rows, (12 : ℝ) < r.2) ∧
    (∃ r ∈ curveOf 1 Data.group21Rows, r.2 ≤ (10 : ℝ)) ∧ (∃ r ∈ curveOf 0 Data.group21Rows, (10 : ℝ) < r.2) ∧
    IsBar u (.quantity ⟨10, PUnit.bar, 3⟩) 10 ∧ IsBar u (.quantity ⟨1200000 / psiPa, PUnit.psi, 3⟩) 12 := by
  have z0 : (-29, 19) ∈ curveOf 0 Data.group21Rows := by norm_num [curveOf, Data.group21Rows, cellBar]
  have z1 : (816, 0) ∈ curveOf 0 Data.group21Rows := by norm_num [curveOf, Data.group21Rows, cellBar]
  have z2 : (816, 2.8) ∈ curveOf 1 Data.group21Rows := by norm_num [curveOf, Data.group21Rows, cellBar]
  refine ⟨⟨("304", "2.1", 200, 78, 28), by decide, rfl, _, List.mem_cons_self, rfl, 0, rfl, rfl⟩,
    ⟨("304", "2.1", 200, 78, 28), by decide, rfl, _, List.mem_cons_self, rfl, 1, rfl, rfl⟩, by decide, by decide,
    ⟨_, z1, by norm_num⟩, ⟨_, z0, by norm_num⟩, ⟨_, z2, by norm_num⟩, ⟨_, z0, by norm_num⟩,
    ⟨rfl, by simp [PUnit.bar]⟩, ⟨rfl, ?_⟩⟩
  show 1200000 / psiPa * psiPa + 0 = 12 * 100000
  have : psiPa ≠ 0 := by unfold psiPa; norm_num
  field_simp
  norm_num

end Pypbomb.Flange
