/-
Sizes of intermediate results in the calculations with temperatures (offset units), in the interpolations in tables and in
the run-up distance.
-/
import Verif.Lemmas.Sized
import Verif.Props.RoundedFlange
import Verif.Model.RoundedRunUp

namespace Pypbomb

/-- A float of size `n`. -/
structure SF (n : ℕ) (x : ℝ) : Prop where
  size : Sized n x
  float : IsFloat x

namespace SF
variable {fp : FP} {κ n m l : ℕ} {x y : ℝ}

theorem mono (h : SF n x) (hn : n ≤ m) : SF m x := ⟨h.size.mono hn, h.float⟩

theorem sub (hx : SF n x) (hy : SF m y) : Sized (max n m + 52) (x - y) := hx.float.sub hy.float hx.size hy.size

theorem add (hx : SF n x) (hy : SF m y) : Sized (max n m + 52) (x + y) := hx.float.add hy.float hx.size hy.size

theorem zero : SF 0 0 := ⟨.inl rfl, 0, 0, by norm_num, by simp⟩

theorem one : SF 0 1 := ⟨.one, .one⟩

end SF

theorem FP.IEEE.sf {fp : FP} {κ n : ℕ} {x : ℝ} (H : fp.IEEE κ) (h : Sized n x) (hn : n ≤ 1022) : SF (n + 1) (fp.rnd x) :=
  ⟨H.sized h hn, H.isFloat h hn⟩

/-! ### Units with an offset -/

/-- A quantity whose magnitude is a float of size `n`, in a unit whose scale has size `k` and whose offset has size 34. -/
structure QT (n k : ℕ) (q : Quantity) : Prop where
  mag : SF n q.mag
  unit : Sized k q.unit.scale
  off : Sized 34 q.unit.offset

namespace QT
open Quantity
open scoped Classical
variable {fp : FP} {κ n k m l : ℕ} {a b : Quantity} (H : fp.IEEE κ)

theorem mono (h : QT n k a) (hn : n ≤ m) (hk : k ≤ l) : QT m l a := ⟨h.mag.mono hn, h.unit.mono hk, h.off⟩

theorem of_qs (h : QS n k a) : QT n k a := ⟨⟨h.mag, h.float⟩, h.unit, .inl h.off⟩
include H

theorem base (h : QT n k a) (hn : n + k ≤ 900) (hk : k ≤ 500) :
    a.baseR fp.widen = a.baseR fp ∧ SF (max (n + k + 2) 35 + 53) (a.baseR fp) := by
  unfold baseR
  split
  · exact ⟨rfl, h.mag.mono (by omega)⟩
  have hb : Sized 0 (PUnit.base a.unit.dim).scale := Sized.one
  have hc := h.mag.size.mul (H.conv_sized (a := a.unit) (b := PUnit.base a.unit.dim) rfl h.unit hb hk (by norm_num))
  have e := FP.IEEE.widen_conv (fp := fp) (a := a.unit) (b := PUnit.base a.unit.dim) rfl h.unit hb hk (by norm_num)
  rw [e]
  have s := H.sf hc (by omega)
  have so := H.sf h.off (by norm_num)
  have t := s.add so
  dsimp only
  rw [FP.IEEE.widen_rnd hc (by omega), FP.IEEE.widen_rnd h.off (by norm_num)]
  split
  · exact ⟨rfl, s.mono (by omega)⟩
  · rw [FP.IEEE.widen_rnd t (by omega)]
    exact ⟨rfl, (H.sf t (by omega)).mono (by omega)⟩

theorem degF (h : QT n k a) (hn : n + k ≤ 700) (hk : k ≤ 500) :
    Same (fun q => SF (max (n + k + 2) 35 + 110) q.mag) (a.toDegFR fp) (a.toDegFR fp.widen) := by
  unfold toDegFR
  refine Same.ite (fun hd => Same.ite (fun _ => ?_) fun _ => ?_) fun _ => .error
  · exact .ok (h.mag.mono (by omega))
  · have hF : Sized 1 PUnit.degF.scale := .inr (by norm_num [PUnit.degF])
    have hK : Sized 0 PUnit.kelvin.scale := .inr (by norm_num [PUnit.kelvin, PUnit.base])
    have ho : Sized 9 PUnit.degF.offset := .inr (by norm_num [PUnit.degF])
    have hc := H.conv_sized (a := PUnit.degF) (b := PUnit.kelvin) rfl hF hK (by norm_num) (by norm_num)
    have ec := FP.IEEE.widen_conv (fp := fp) (a := PUnit.degF) (b := PUnit.kelvin) rfl hF hK (by norm_num) (by norm_num)
    obtain ⟨e, hb⟩ := h.base H (by omega) hk
    have hs := hb.sub (H.sf ho (by norm_num))
    have hq := (H.sized hs (by omega)).div hc
    rw [e, ec, FP.IEEE.widen_rnd ho (by norm_num), FP.IEEE.widen_rnd hs (by omega), FP.IEEE.widen_rnd hq (by omega)]
    exact .ok ((H.sf hq (by omega)).mono (by omega))

theorem less (ha : QT n k a) (hb : QT m l b) (hn : n + k ≤ 900) (hm : m + l ≤ 900) (hk : k ≤ 500) (hl : l ≤ 500) :
    Same (fun _ => True) (a.lessR fp b) (a.lessR fp.widen b) := by
  unfold lessR
  refine (Same.any _).bind fun _ _ => Same.ite (fun _ => Same.any _) fun _ => Same.ite (fun _ => ?_) fun _ => .error
  rw [(ha.base H hn hk).1, (hb.base H hm hl).1]
  exact Same.any _

end QT

theorem mem_of_lookup {α : Type} {l : List (String × α)} {k : String} {v : α} (h : l.lookup k = some v) : (k, v) ∈ l := by
  induction l with
  | nil => cases h
  | cons a l ih =>
    obtain ⟨a1, a2⟩ := a
    rw [List.lookup_cons] at h
    split at h
    · rename_i e
      cases h
      rw [beq_iff_eq.mp e]
      exact List.mem_cons_self
    · exact List.mem_cons_of_mem _ (ih h)

/-! ### Interpolation -/

section
variable {fp : FP} {κ n : ℕ} (H : fp.IEEE κ)
include H

theorem npInterpR_same {x : ℝ} (hx : SF 220 x) {l : List (ℝ × ℝ)} (hl : ∀ p ∈ l, SF 220 p.1 ∧ SF 220 p.2) :
    npInterpR fp.widen x l = npInterpR fp x l := by
  induction l with
  | nil => rfl
  | cons a l ih =>
    cases l with
    | nil => rfl
    | cons b l =>
      obtain ⟨x0, y0⟩ := a
      obtain ⟨x1, y1⟩ := b
      have ih := ih fun p hp => hl p (List.mem_cons_of_mem _ hp)
      have h0 := hl (x0, y0) List.mem_cons_self
      have h1 := hl (x1, y1) (List.mem_cons_of_mem _ List.mem_cons_self)
      dsimp only at h0 h1
      simp only [npInterpR, ih]
      have a1 := h1.2.sub h0.2
      have a2 := h1.1.sub h0.1
      have a3 := hx.sub h0.1
      have a4 := (H.sized a1 (by norm_num)).div (H.sized a2 (by norm_num))
      have a5 := (H.sized a4 (by norm_num)).mul (H.sized a3 (by norm_num))
      have a6 := (H.sf a5 (by norm_num)).add h0.2
      rw [FP.IEEE.widen_rnd a1 (by norm_num), FP.IEEE.widen_rnd a2 (by norm_num), FP.IEEE.widen_rnd a3 (by norm_num),
        FP.IEEE.widen_rnd a4 (by norm_num), FP.IEEE.widen_rnd a5 (by norm_num), FP.IEEE.widen_rnd a6 (by norm_num)]

namespace Flange

theorem segR_same {x : ℝ} {a b : ℝ × ℝ} (hx : SF 140 x) (ha : SF 140 a.1 ∧ SF 140 a.2) (hb : SF 140 b.1 ∧ SF 140 b.2) :
    segR fp.widen x a b = segR fp x a b := by
  have d := hb.1.sub ha.1
  have w := Sized.one.div (H.sized d (by norm_num))
  have d1 := hb.1.sub hx
  have d2 := hx.sub ha.1
  have b1 := (H.sized w (by norm_num)).mul (H.sized d1 (by norm_num))
  have b2 := (H.sized w (by norm_num)).mul (H.sized d2 (by norm_num))
  have c1 := ha.2.size.mul (H.sized b1 (by norm_num))
  have c2 := hb.2.size.mul (H.sized b2 (by norm_num))
  have s := (H.sf c1 (by norm_num)).add (H.sf c2 (by norm_num))
  unfold segR
  dsimp only
  rw [FP.IEEE.widen_rnd d (by norm_num), FP.IEEE.widen_rnd w (by norm_num), FP.IEEE.widen_rnd d1 (by norm_num),
    FP.IEEE.widen_rnd d2 (by norm_num), FP.IEEE.widen_rnd b1 (by norm_num), FP.IEEE.widen_rnd b2 (by norm_num),
    FP.IEEE.widen_rnd c1 (by norm_num), FP.IEEE.widen_rnd c2 (by norm_num), FP.IEEE.widen_rnd s (by norm_num)]

theorem slinearR_same {x : ℝ} (hx : SF 140 x) {l : List (ℝ × ℝ)} (hl : ∀ p ∈ l, SF 140 p.1 ∧ SF 140 p.2) :
    slinearR fp.widen x l = slinearR fp x l := by
  induction l with
  | nil => rfl
  | cons a l ih =>
    cases l with
    | nil => rfl
    | cons b l =>
      obtain ⟨x0, y0⟩ := a
      obtain ⟨x1, y1⟩ := b
      have ih := ih fun p hp => hl p (List.mem_cons_of_mem _ hp)
      have h0 := hl (x0, y0) List.mem_cons_self
      have h1 := hl (x1, y1) (List.mem_cons_of_mem _ List.mem_cons_self)
      simp only [slinearR, ih, segR_same H hx h0 h1]

theorem interpolateR_same {x : ℝ} (hx : SF 140 x) {l : List (ℝ × ℝ)} (hl : ∀ p ∈ l, SF 140 p.1 ∧ SF 140 p.2) :
    interpolateR fp.widen x l = interpolateR fp x l :=
  slinearR_same H hx fun p hp => hl p ((List.mem_insertionSort _).mp hp)

/-! ### The rating tables -/

/-- A table of floats of size 16. -/
def FS (f : Frame) : Prop := ∀ r ∈ f.rows, SF 16 r.1 ∧ ∀ c ∈ r.2, SF 16 c

omit H in
theorem sized_int {k : ℤ} (h : |k| ≤ 2 ^ n) : Sized n (k : ℝ) := by
  by_cases h0 : k = 0
  · exact .inl (by rw [h0]; norm_num)
  · have h1 : (1 : ℝ) ≤ |(k : ℝ)| := by exact_mod_cast Int.one_le_abs h0
    refine .inr ⟨?_, by exact_mod_cast h⟩
    exact one_le_mul_of_one_le_of_one_le h1 (one_le_pow₀ one_le_two)

omit H in
theorem sized_tenth {k : ℕ} (h : k ≤ 10000) : Sized 15 ((k : ℝ) / 10) := by
  by_cases h0 : k = 0
  · exact .inl (by rw [h0]; norm_num)
  · have h1 : (1 : ℝ) ≤ k := by exact_mod_cast Nat.one_le_iff_ne_zero.mpr h0
    have h2 : (k : ℝ) ≤ 10000 := by exact_mod_cast h
    refine .inr ?_
    rw [abs_of_nonneg (by positivity)]
    constructor <;> norm_num <;> linarith

omit H in
theorem table_sizes : ∀ tb ∈ ratingTables, ∀ r ∈ tb.2.2, |r.1| ≤ 10000 ∧ ∀ c ∈ r.2, c.getD 0 ≤ 10000 := by decide +kernel

theorem frames_same {tb : String × List String × List (Int × List (Option Nat))} (h : tb ∈ ratingTables) :
    roundFrame fp.widen (frameOf tb.2) = roundFrame fp (frameOf tb.2) ∧ FS (roundFrame fp (frameOf tb.2)) := by
  have key : ∀ r ∈ (frameOf tb.2).rows, Sized 15 r.1 ∧ ∀ c ∈ r.2, Sized 15 c := by
    intro r hr
    obtain ⟨s, hs, rfl⟩ := List.mem_map.mp hr
    obtain ⟨h1, h2⟩ := table_sizes tb h s hs
    refine ⟨sized_int (h1.trans (by norm_num)), fun c hc => ?_⟩
    obtain ⟨d, hd, rfl⟩ := List.mem_map.mp hc
    exact sized_tenth (h2 d hd)
  constructor
  · unfold roundFrame
    congr 1
    refine List.map_congr_left fun r hr => ?_
    obtain ⟨h1, h2⟩ := key r hr
    rw [FP.IEEE.widen_rnd h1 (by norm_num)]
    congr 1
    exact List.map_congr_left fun c hc => FP.IEEE.widen_rnd (h2 c hc) (by norm_num)
  · intro r hr
    obtain ⟨s, hs, rfl⟩ := List.mem_map.mp hr
    obtain ⟨h1, h2⟩ := key s hs
    refine ⟨H.sf h1 (by norm_num), fun c hc => ?_⟩
    obtain ⟨d, hd, rfl⟩ := List.mem_map.mp hc
    exact H.sf (h2 d hd) (by norm_num)

theorem withLimitsR_same {α : Type} {f g : List (String × Frame) → Py α}
    (h : ∀ lim, (∀ x ∈ lim, FS x.2) → f lim = g lim) : withLimitsR fp f = withLimitsR fp.widen g := by
  rw [withLimitsR_eq, withLimitsR_eq]
  have e : (ratingTables.map fun tb => (tb.1, roundFrame fp.widen (frameOf tb.2))) =
      ratingTables.map fun tb => (tb.1, roundFrame fp (frameOf tb.2)) :=
    List.map_congr_left fun tb ht => by rw [(frames_same H ht).1]
  rw [e]
  refine h _ fun x hx => ?_
  obtain ⟨tb, ht, rfl⟩ := List.mem_map.mp hx
  exact (frames_same H ht).2

omit H in
theorem lookupGroup_fs {lim : List (String × Frame)} (h : ∀ x ∈ lim, FS x.2) (m : Tube.MatIn) :
    Same (fun g => FS g.2) (lookupGroup lim m) (lookupGroup lim m) := by
  refine ⟨rfl, fun g e => ?_⟩
  obtain ⟨-, -, e⟩ := bind_eq_ok.mp e
  obtain ⟨r, -, e⟩ := bind_eq_ok.mp e
  split at e
  · cases e
  · rename_i f hf
    cases e
    exact h (r.2.1, f) (mem_of_lookup hf)

omit H in
theorem series_sf {l : List ℝ} (h : ∀ x ∈ l, SF n x) : SF n (seriesMax l) ∧ SF n (seriesMin l) := by
  have key : ∀ (l : List ℝ) (a : ℝ), SF n a → (∀ x ∈ l, SF n x) → SF n (l.foldl max a) ∧ SF n (l.foldl min a) := by
    intro l
    induction l with
    | nil => exact fun a ha _ => ⟨ha, ha⟩
    | cons b l ih =>
      intro a ha hl
      have hb := hl b List.mem_cons_self
      have hl' := fun x hx => hl x (List.mem_cons_of_mem _ hx)
      constructor
      · exact (ih (max a b) (by rcases max_choice a b with e | e <;> rw [e] <;> assumption) hl').1
      · exact (ih (min a b) (by rcases min_choice a b with e | e <;> rw [e] <;> assumption) hl').2
  cases l with
  | nil => exact ⟨SF.zero.mono (Nat.zero_le n), SF.zero.mono (Nat.zero_le n)⟩
  | cons a l => exact key (a :: l) a (h a List.mem_cons_self) h

omit H in
theorem lookup_fs {f : Frame} (h : FS f) {r : ℝ × List ℝ} (hr : r ∈ f.rows) {c : String} {p : ℝ}
    (e : (f.cols.zip r.2).lookup c = some p) : SF 16 p :=
  (h r hr).2 p (List.of_mem_zip (mem_of_lookup e)).2

omit H in
theorem colBar_fs {f : Frame} (h : FS f) (c : String) : ∀ p ∈ colBar f c, SF 16 p := fun _ hp => by
  obtain ⟨r, hr, e⟩ := List.mem_filterMap.mp hp
  exact lookup_fs h hr e

omit H in
theorem temps_fs {f : Frame} (h : FS f) : ∀ t ∈ f.rows.map (·.1), SF 16 t := fun _ ht => by
  obtain ⟨r, hr, rfl⟩ := List.mem_map.mp ht
  exact (h r hr).1

omit H in
theorem degC_qt {x : ℝ} {r : ℕ} (h : SF n x) : QT n 0 ⟨x, PUnit.degC, r⟩ :=
  ⟨h, .inr (by norm_num [PUnit.degC]), (Sized.mono (n := 9) (.inr (by norm_num [PUnit.degC])) (by norm_num))⟩

omit H in
theorem bar_qt {x : ℝ} {r : ℕ} (h : SF n x) : QT n 17 ⟨x, PUnit.bar, r⟩ :=
  ⟨h, .inr (by norm_num [PUnit.bar]), .inl rfl⟩

theorem curveSIR_same {f : Frame} (h : FS f) (c : String) :
    curveSIR fp.widen f c = curveSIR fp f c ∧ ∀ p ∈ curveSIR fp f c, SF 140 p.1 ∧ SF 140 p.2 := by
  constructor
  · refine List.filterMap_congr fun r hr => ?_
    cases e : (f.cols.zip r.2).lookup c with
    | none => rfl
    | some p =>
      simp only [Option.map_some, ((degC_qt (h r hr).1).base H (by norm_num) (by norm_num)).1,
        ((bar_qt (lookup_fs h hr e)).base H (by norm_num) (by norm_num)).1]
  · intro q hq
    obtain ⟨r, hr, e⟩ := List.mem_filterMap.mp hq
    obtain ⟨p, e', rfl⟩ := Option.map_eq_some_iff.mp e
    exact ⟨((degC_qt (h r hr).1).base H (by norm_num) (by norm_num)).2.mono (by norm_num),
      ((bar_qt (lookup_fs h hr e')).base H (by norm_num) (by norm_num)).2.mono (by norm_num)⟩

theorem firstClassR_same {f : Frame} (h : FS f) {t : ℝ} (ht : SF 140 t) (p : ℝ) :
    firstClassR fp f t p = firstClassR fp.widen f t p := by
  unfold firstClassR
  have e : ∀ c, interpolateR fp.widen t (curveSIR fp.widen f c) = interpolateR fp t (curveSIR fp f c) := fun c => by
    rw [(curveSIR_same H h c).1, interpolateR_same H ht (curveSIR_same H h c).2]
  simp only [e]

theorem checkRangeR_same {q : Quantity} {lo hi : ℝ} {u : PUnit} {reg : ℕ} {msg : String} (hq : QT 50 34 q)
    (hl : QT 16 17 ⟨lo, u, reg⟩) (hh : QT 16 17 ⟨hi, u, reg⟩) :
    Same (fun _ => True) (checkRangeR fp q lo hi u reg msg) (checkRangeR fp.widen q lo hi u reg msg) := by
  unfold checkRangeR
  exact (hq.less H hl (by norm_num) (by norm_num) (by norm_num) (by norm_num)).bind fun _ _ =>
    (hh.less H hq (by norm_num) (by norm_num) (by norm_num) (by norm_num)).bind fun _ _ => Same.any _

theorem checkBaseR_same {q : Quantity} {kind : String} (hq : QT 50 34 q) :
    checkBaseR fp.widen q kind = checkBaseR fp q kind := by
  unfold checkBaseR
  rw [(hq.base H (by norm_num) (by norm_num)).1]

end Flange
end

/-! ### Logarithms and powers -/

/-- The logarithm of a float is 0 or at least 2^-54 in absolute value. -/
theorem SF.log {n m : ℕ} {x : ℝ} (h : SF n x) (x0 : 0 < x) (hm : 54 ≤ m) (hn : n ≤ 2 ^ m) : Sized m (Real.log x) := by
  have hup : |Real.log x| ≤ n := by
    rcases h.size with h0 | ⟨h1, h2⟩
    · exact absurd h0 x0.ne'
    rw [abs_of_pos x0] at h1 h2
    have l2 : Real.log 2 ≤ 1 := by have := Real.log_le_sub_one_of_pos (x := 2) (by norm_num); linarith
    have e : Real.log ((2 : ℝ) ^ n) ≤ n := by
      rw [Real.log_pow]
      exact mul_le_of_le_one_right (Nat.cast_nonneg n) l2
    rw [abs_le]
    constructor
    · have := Real.log_nonneg h1
      rw [Real.log_mul x0.ne' (by positivity)] at this
      linarith
    · exact (Real.log_le_log x0 h2).trans e
  by_cases h1 : Real.log x = 0
  · exact .inl h1
  have hk : ∀ z : ℝ, (1 / 2) ^ 54 ≤ |z| → 1 ≤ |z| * 2 ^ m := fun z hz =>
    calc (1 : ℝ) = (1 / 2) ^ 54 * 2 ^ 54 := by norm_num
      _ ≤ |z| * 2 ^ m := mul_le_mul hz (pow_le_pow_right₀ one_le_two hm) (by positivity) (abs_nonneg z)
  refine .inr ⟨hk _ ?_, hup.trans (by exact_mod_cast hn)⟩
  have half : ∀ y : ℝ, 2 ≤ y → 1 / 2 ≤ Real.log y := fun y hy => by
    have := Real.one_sub_inv_le_log_of_pos (x := y) (by linarith)
    have : y⁻¹ ≤ 1 / 2 := by rw [inv_eq_one_div]; exact one_div_le_one_div_of_le two_pos hy
    linarith
  have x1 : x ≠ 1 := fun e => h1 (by rw [e, Real.log_one])
  by_cases hb : 2 ≤ x
  · exact le_trans (by norm_num) ((half x hb).trans (le_abs_self _))
  by_cases hs : x ≤ 1 / 2
  · have := half x⁻¹ (by rw [le_inv_comm₀ two_pos x0]; simpa using hs)
    rw [Real.log_inv] at this
    exact le_trans (by norm_num) (this.trans (neg_le_abs _))
  rw [not_le] at hb hs
  obtain ⟨k, hk⟩ := h.float.multiple (n := 1) (m := 1) (.inr (by rw [abs_of_pos x0]; constructor <;> norm_num <;> linarith))
    le_rfl
  have hx : x = k / 2 ^ 53 := by rw [← hk]; norm_num
  have hne : k ≠ 2 ^ 53 := fun e => x1 (by rw [hx, e]; norm_num)
  rcases lt_or_gt_of_ne hne with hl | hl
  · have hl' : k ≤ 2 ^ 53 - 1 := by omega
    have : (k : ℝ) ≤ 2 ^ 53 - 1 := by exact_mod_cast hl'
    have h2 : x - 1 ≤ -(1 / 2) ^ 53 := by rw [hx]; rw [sub_le_iff_le_add, div_le_iff₀ (by norm_num)]; norm_num at *; linarith
    have h3 := Real.log_le_sub_one_of_pos x0
    have h4 := neg_le_abs (Real.log x)
    norm_num at *
    linarith
  · have hl' : (2 : ℤ) ^ 53 + 1 ≤ k := by omega
    have : (2 : ℝ) ^ 53 + 1 ≤ k := by exact_mod_cast hl'
    have h2 : 1 + (1 / 2) ^ 53 ≤ x := by rw [hx]; rw [le_div_iff₀ (by norm_num)]; norm_num at *; linarith
    have h3 := Real.one_sub_inv_le_log_of_pos x0
    have h4 : x⁻¹ ≤ 1 - (1 / 2) ^ 54 := by
      rw [inv_le_comm₀ x0 (by norm_num)]
      refine le_trans ?_ h2
      norm_num
    have h5 := le_abs_self (Real.log x)
    linarith

/-- A power with an exponent between 0 and 1. -/
theorem Sized.rpow {n : ℕ} {x e : ℝ} (h : Sized n x) (h0 : 0 ≤ x) (e0 : 0 < e) (e1 : e ≤ 1) : Sized n (x ^ e) := by
  rcases h with h | ⟨h1, h2⟩
  · exact .inl (by rw [h, Real.zero_rpow e0.ne'])
  · rw [abs_of_nonneg h0] at h1 h2
    have k0 : (0 : ℝ) ≤ 2 ^ n := by positivity
    have k1 : (1 : ℝ) ≤ 2 ^ n := one_le_pow₀ one_le_two
    have hx := Real.rpow_nonneg h0 e
    have kp : ((2 : ℝ) ^ n) ^ e ≤ 2 ^ n := by
      calc ((2 : ℝ) ^ n) ^ e ≤ ((2 : ℝ) ^ n) ^ (1 : ℝ) := Real.rpow_le_rpow_of_exponent_le k1 e1
        _ = 2 ^ n := Real.rpow_one _
    refine .inr ?_
    rw [abs_of_nonneg hx]
    constructor
    · have : (1 : ℝ) ≤ (x * 2 ^ n) ^ e := Real.one_le_rpow h1 e0.le
      rw [Real.mul_rpow h0 k0] at this
      exact this.trans (mul_le_mul_of_nonneg_left kp hx)
    · exact (Real.rpow_le_rpow h0 h2 e0.le).trans kp

/-- A rounded number is within a factor 1 ± 2^-53 of the exact one. -/
theorem FP.IEEE.between {fp : FP} {κ n : ℕ} {x lo hi : ℝ} (H : fp.IEEE κ) (h : Sized n x) (hn : n ≤ 1022) (l0 : 0 ≤ lo)
    (hl : lo ≤ x) (hh : x ≤ hi) : lo * (99 / 100) ≤ fp.rnd x ∧ fp.rnd x ≤ hi * (101 / 100) := by
  have e := abs_le.mp (H.rnd x (h.mono hn))
  rw [abs_of_nonneg (l0.trans hl)] at e
  have e2 : ((1 : ℝ) / 2) ^ 53 ≤ 1 / 100 := by norm_num
  have e3 : ((1 : ℝ) / 2) ^ 53 * x ≤ 1 / 100 * x := mul_le_mul_of_nonneg_right e2 (l0.trans hl)
  constructor <;> linarith [e.1, e.2]

namespace QS
open Quantity
variable {fp : FP} {κ n m k l : ℕ} {a b : Quantity} (H : fp.IEEE κ)
include H

theorem powFloat {p : ℚ} {e : ℝ} (ha : QS n k a) (e0 : 0 < e) (e1 : e ≤ 1) (p0 : 0 < p) (p1 : p ≤ 1) (hp : p.den ≠ 1)
    (hn : n ≤ 1022) : Same (QS (n + 1) k) (a.powFloatR fp p e) (a.powFloatR fp.widen p e) := by
  unfold powFloatR
  refine (Same.any _).bind fun _ _ => Same.ite (fun _ => .error) fun h0 => Same.ite (fun _ => .error) fun _ => ?_
  have h := ha.mag.rpow (not_lt.mp fun h => h0 ⟨h, hp⟩) e0 e1
  rw [FP.IEEE.widen_rnd h hn]
  exact .ok (rnd H h hn (ha.unit.root a.unit.pos.le p0 p1) rfl)

theorem toNumberF (ha : QS n k a) (hn : n + k ≤ 1020) (hk : k ≤ 500) :
    Same (SF (n + k + 3)) (a.toNumberR fp) (a.toNumberR fp.widen) := by
  unfold toNumberR
  refine (ha.convert H (u := PUnit.dimensionless) (l := 0) Sized.one rfl (by omega) hk (by norm_num)).bind fun q hq => ?_
  exact .ok ⟨hq.mag.mono (by omega), hq.float⟩

theorem log (ha : QS n k a) (hn : n + k ≤ 1020) (hk : k ≤ 500) :
    Same (SF 55) (a.logR fp) (a.logR fp.widen) := by
  unfold logR
  refine (ha.toNumberF H hn hk).bind fun x hx => Same.ite (fun _ => .error) fun h0 => ?_
  have h := hx.log (m := 54) (not_le.mp h0) le_rfl (by norm_num; omega)
  rw [FP.IEEE.widen_rnd h (by norm_num)]
  exact .ok (H.sf h (by norm_num))

end QS

end Pypbomb
