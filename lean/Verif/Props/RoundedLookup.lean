/-
Rounding in the stress lookup (C111): what floating-point arithmetic does to the temperature conversion and the
interpolation of the allowable stress.
-/
import Verif.Model.RoundedLookup
import Verif.Props.RoundedTube
import Verif.Props.TubeTables
import Verif.Props.FlangeInverse

namespace Pypbomb

/-! ### Interpolation -/

/-- Neighbouring points of a table are at most a factor `L` steep. -/
def Steep (L : ℝ) : List (ℝ × ℝ) → Prop
  | a :: b :: l => |b.2 - a.2| ≤ L * (b.1 - a.1) ∧ Steep L (b :: l)
  | _ => True

theorem npInterp_step {x : ℝ} {a b : ℝ × ℝ} {l : List (ℝ × ℝ)} (h1 : a.1 ≤ x) (h2 : x < b.1) :
    npInterp x (a :: b :: l) = (b.2 - a.2) / (b.1 - a.1) * (x - a.1) + a.2 := by
  obtain ⟨a1, a2⟩ := a; obtain ⟨b1, b2⟩ := b
  simp only [npInterp] at *
  rw [if_neg (not_lt.mpr h1), if_pos h2]

theorem npInterp_skip {x : ℝ} {a b : ℝ × ℝ} {l : List (ℝ × ℝ)} (h : a.1 < b.1) (h2 : b.1 ≤ x) :
    npInterp x (a :: b :: l) = npInterp x (b :: l) := by
  obtain ⟨a1, a2⟩ := a; obtain ⟨b1, b2⟩ := b
  simp only [npInterp] at *
  rw [if_neg (not_lt.mpr (h.le.trans h2)), if_neg (not_lt.mpr h2)]

/-- An interpolated table is no steeper than its steepest segment. -/
theorem npInterp_lipschitz {L : ℝ} (hL : 0 ≤ L) {l : List (ℝ × ℝ)} (h : Inc l) (hs : Steep L l) :
    ∀ x x' : ℝ, x ≤ x' → |npInterp x' l - npInterp x l| ≤ L * (x' - x) := by
  induction l with
  | nil => intro x x' hx; simp only [npInterp, sub_self, abs_zero]; exact mul_nonneg hL (sub_nonneg.mpr hx)
  | cons a l ih =>
    cases l with
    | nil => intro x x' hx; simp only [npInterp, sub_self, abs_zero]; exact mul_nonneg hL (sub_nonneg.mpr hx)
    | cons b l =>
      intro x x' hx
      have ih := ih h.tail hs.2
      have hab : a.1 < b.1 := h.1
      have hpos : 0 < b.1 - a.1 := sub_pos.mpr hab
      have hslope : |(b.2 - a.2) / (b.1 - a.1)| ≤ L := by
        rw [abs_div, abs_of_pos hpos, div_le_iff₀ hpos]; exact hs.1
      have hLx : 0 ≤ L * (x' - x) := mul_nonneg hL (sub_nonneg.mpr hx)
      -- up to the second point
      have hlow : ∀ {y y' : ℝ}, y ≤ y' → y' ≤ b.1 →
          |npInterp y' (a :: b :: l) - npInterp y (a :: b :: l)| ≤ L * (y' - y) := by
        intro y y' hy hyb
        have val : ∀ {z : ℝ}, a.1 ≤ z → z ≤ b.1 →
            npInterp z (a :: b :: l) = (b.2 - a.2) / (b.1 - a.1) * (z - a.1) + a.2 := by
          intro z h1 h2
          rcases h2.lt_or_eq with h2 | h2
          · exact npInterp_step h1 h2
          · rw [npInterp_skip hab h2.ge, npInterp_left h.tail h2.le, h2, div_mul_cancel₀ _ hpos.ne']; ring
        rcases le_total y' a.1 with h1 | h1
        · rw [npInterp_left h h1, npInterp_left h (hy.trans h1), sub_self, abs_zero]
          exact mul_nonneg hL (sub_nonneg.mpr hy)
        · rw [val h1 hyb]
          rcases le_total y a.1 with h2 | h2
          · rw [npInterp_left h h2, add_sub_cancel_right, abs_mul, abs_of_nonneg (sub_nonneg.mpr h1)]
            exact mul_le_mul hslope (by linarith) (sub_nonneg.mpr h1) hL
          · rw [val h2 (hy.trans hyb), show (b.2 - a.2) / (b.1 - a.1) * (y' - a.1) + a.2 -
              ((b.2 - a.2) / (b.1 - a.1) * (y - a.1) + a.2) = (b.2 - a.2) / (b.1 - a.1) * (y' - y) by ring, abs_mul,
              abs_of_nonneg (sub_nonneg.mpr hy)]
            exact mul_le_mul_of_nonneg_right hslope (sub_nonneg.mpr hy)
      rcases le_total x' b.1 with h1 | h1
      · exact hlow hx h1
      rcases le_total b.1 x with h2 | h2
      · rw [npInterp_skip hab h1, npInterp_skip hab h2]; exact ih _ _ hx
      · have e1 := hlow h2 le_rfl
        have e2 := ih _ _ h1
        rw [← npInterp_skip (a := a) hab h1, ← npInterp_skip (a := a) hab le_rfl] at e2
        have := abs_add_le (npInterp x' (a :: b :: l) - npInterp b.1 (a :: b :: l))
          (npInterp b.1 (a :: b :: l) - npInterp x (a :: b :: l))
        rw [sub_add_sub_cancel] at this
        nlinarith

theorem npInterp_lipschitz' {L : ℝ} (hL : 0 ≤ L) {l : List (ℝ × ℝ)} (h : Inc l) (hs : Steep L l) (x x' : ℝ) :
    |npInterp x' l - npInterp x l| ≤ L * |x' - x| := by
  rcases le_total x x' with hx | hx
  · rw [abs_of_nonneg (sub_nonneg.mpr hx)]; exact npInterp_lipschitz hL h hs _ _ hx
  · rw [abs_sub_comm, abs_sub_comm x' x, abs_of_nonneg (sub_nonneg.mpr hx)]; exact npInterp_lipschitz hL h hs _ _ hx

variable {fp : FP} {u : ℝ} {κ : ℕ}

theorem FP.Accurate.rnd_le (H : fp.Accurate u κ) {a z : ℝ} (hz : |z| ≤ a) : |fp.rnd z - z| ≤ u * a :=
  (H.rnd z).trans (mul_le_mul_of_nonneg_left hz H.nonneg)

/-- One segment of the rounded interpolation: `y0'`, `y1'` are the rounded ordinates. -/
theorem segment_err (H : fp.Accurate u κ) (hu : u ≤ 1 / 100) {Y y0 y1 h d : ℝ} (hY0 : |y0| ≤ Y) (hY1 : |y1| ≤ Y)
    (hD : |y1 - y0| ≤ Y) (hh : 0 < h) (hd0 : 0 ≤ d) (hd : d ≤ h) :
    |fp.rnd (fp.rnd (fp.rnd (fp.rnd (fp.rnd y1 - fp.rnd y0) / h) * fp.rnd d) + fp.rnd y0) -
      ((y1 - y0) / h * d + y0)| ≤ 12 * u * Y := by
  have hu0 := H.nonneg
  have Y0 : 0 ≤ Y := (abs_nonneg _).trans hY0
  have uY : 0 ≤ u * Y := mul_nonneg hu0 Y0
  have uY1 : u * (u * Y) ≤ 1 / 100 * (u * Y) := mul_le_mul_of_nonneg_right hu uY
  have uY2 : u * Y ≤ 1 / 100 * Y := mul_le_mul_of_nonneg_right hu Y0
  have r0 := H.rnd_le hY0
  have r1 := H.rnd_le hY1
  generalize fp.rnd y0 = z0 at *
  generalize fp.rnd y1 = z1 at *
  rw [abs_le] at r0 r1
  have a1 : |z1 - z0 - (y1 - y0)| ≤ 2 * (u * Y) := by rw [abs_le]; constructor <;> linarith [r0.1, r0.2, r1.1, r1.2]
  have b1 : |z1 - z0| ≤ Y + 2 * (u * Y) := by
    rw [abs_le] at hD a1 ⊢; constructor <;> linarith [hD.1, hD.2, a1.1, a1.2]
  have r2 := H.rnd_le b1
  generalize fp.rnd (z1 - z0) = A at *
  have a2 : |A - (y1 - y0)| ≤ 3.1 * (u * Y) := by
    rw [abs_le] at r2 a1 ⊢; constructor <;> linarith [r2.1, r2.2, a1.1, a1.2]
  have b2 : |A| ≤ 1.05 * Y := by
    rw [abs_le] at hD a2 ⊢; constructor <;> linarith [hD.1, hD.2, a2.1, a2.2]
  have r3 := H.rnd (A / h)
  rw [abs_div, abs_of_pos hh] at r3
  generalize fp.rnd (A / h) = S at *
  -- `S h` is `A` up to one rounding
  have a3 : |S * h - (y1 - y0)| ≤ 4.2 * (u * Y) := by
    have e : |S * h - A| ≤ u * |A| := by
      have := mul_le_mul_of_nonneg_right r3 hh.le
      rw [← abs_of_pos hh, ← abs_mul, abs_of_pos hh, sub_mul, div_mul_cancel₀ _ hh.ne', mul_assoc,
        div_mul_cancel₀ _ hh.ne'] at this
      exact this
    have : u * |A| ≤ 1.05 * (u * Y) := (mul_le_mul_of_nonneg_left b2 hu0).trans (by linarith)
    rw [abs_le] at e a2 ⊢; constructor <;> linarith [e.1, e.2, a2.1, a2.2]
  have r4 := H.rnd d
  rw [abs_of_nonneg hd0] at r4
  generalize fp.rnd d = D at *
  -- in fractions of the segment
  set s := d / h with hs
  have s0 : 0 ≤ s := div_nonneg hd0 hh.le
  have s1 : s ≤ 1 := (div_le_one hh).mpr hd
  have ed : d = s * h := (div_mul_cancel₀ _ hh.ne').symm
  set σ := D / h with hσ
  have eD : D = σ * h := (div_mul_cancel₀ _ hh.ne').symm
  have hσs : |σ - s| ≤ u * s := by
    rw [eD, ed, ← sub_mul, abs_mul, abs_of_pos hh, ← mul_assoc] at r4
    exact le_of_mul_le_mul_right r4 hh
  have es : S * D = S * h * σ := by rw [eD]; ring
  have et : (y1 - y0) / h * d = (y1 - y0) * s := by rw [hs]; ring
  rw [es, et]
  generalize S * h = T at *
  have hTabs : |T| ≤ 1.1 * Y := by
    rw [abs_le] at hD a3 ⊢; constructor <;> linarith [hD.1, hD.2, a3.1, a3.2]
  have a5 : |T * σ - (y1 - y0) * s| ≤ 5.4 * (u * Y) := by
    have e : T * σ - (y1 - y0) * s = T * (σ - s) + (T - (y1 - y0)) * s := by ring
    have e1 : |T * (σ - s)| ≤ 1.1 * (u * Y) := by
      rw [abs_mul]
      calc |T| * |σ - s| ≤ (1.1 * Y) * (u * 1) := mul_le_mul hTabs (hσs.trans (mul_le_mul_of_nonneg_left s1 hu0))
            (abs_nonneg _) (by linarith)
        _ = 1.1 * (u * Y) := by ring
    have e2 : |(T - (y1 - y0)) * s| ≤ 4.2 * (u * Y) := by
      rw [abs_mul, abs_of_nonneg s0]
      calc |T - (y1 - y0)| * s ≤ |T - (y1 - y0)| * 1 := mul_le_mul_of_nonneg_left s1 (abs_nonneg _)
        _ ≤ _ := by rw [mul_one]; exact a3
    rw [e]
    exact (abs_add_le _ _).trans (by linarith)
  have hq : |(y1 - y0) * s| ≤ Y := by
    rw [abs_mul, abs_of_nonneg s0]
    calc |y1 - y0| * s ≤ |y1 - y0| * 1 := mul_le_mul_of_nonneg_left s1 (abs_nonneg _)
      _ ≤ Y := by rw [mul_one]; exact hD
  have b5 : |T * σ| ≤ 1.1 * Y := by
    rw [abs_le] at hq a5 ⊢; constructor <;> linarith [hq.1, hq.2, a5.1, a5.2]
  have r5 := H.rnd_le b5
  generalize fp.rnd (T * σ) = P at *
  have a6 : |P + z0 - ((y1 - y0) * s + y0)| ≤ 7.5 * (u * Y) := by
    rw [abs_le] at r5 a5 ⊢; constructor <;> linarith [r5.1, r5.2, a5.1, a5.2, r0.1, r0.2]
  have b6 : |P + z0| ≤ 2.1 * Y := by
    rw [abs_le] at a6 hq hY0 ⊢; constructor <;> linarith [a6.1, a6.2, hq.1, hq.2, hY0.1, hY0.2]
  have r6 := H.rnd_le b6
  rw [abs_le] at r6 a6 ⊢
  constructor <;> linarith [r6.1, r6.2, a6.1, a6.2]

/-- The rounded interpolation of a table with rounded ordinates, at points that are floats with exact
differences, is right up to `12 u Y`. -/
theorem npInterpR_err (H : fp.Accurate u κ) (hu : u ≤ 1 / 100) {Y : ℝ} {l : List (ℝ × ℝ)} (h : Inc l)
    (hne : l ≠ []) (hY : ∀ p ∈ l, 0 ≤ p.2 ∧ p.2 ≤ Y)
    (hx : ∀ p ∈ l, fp.rnd p.1 = p.1) (hdx : ∀ p ∈ l, ∀ q ∈ l, fp.rnd (q.1 - p.1) = q.1 - p.1) (x : ℝ) :
    |npInterpR fp x (l.map fun p => (fp.rnd p.1, fp.rnd p.2)) - npInterp x l| ≤ 12 * u * Y := by
  have hu0 := H.nonneg
  induction l with
  | nil => exact absurd rfl hne
  | cons a l ih =>
    have ha := hY a List.mem_cons_self
    have Y0 : 0 ≤ Y := ha.1.trans ha.2
    have uY : 0 ≤ u * Y := mul_nonneg hu0 Y0
    have ra : |fp.rnd a.2 - a.2| ≤ 12 * u * Y := by
      have := H.rnd_le (a := Y) (z := a.2) (by rw [abs_of_nonneg ha.1]; exact ha.2)
      linarith
    cases l with
    | nil => simpa [npInterpR, npInterp] using ra
    | cons b l =>
      have hb := hY b (by simp)
      have hab : a.1 < b.1 := h.1
      have ih := ih h.tail (by simp) (fun p hp => hY p (List.mem_cons_of_mem _ hp))
        (fun p hp => hx p (List.mem_cons_of_mem _ hp))
        (fun p hp q hq => hdx p (List.mem_cons_of_mem _ hp) q (List.mem_cons_of_mem _ hq))
      have ea := hx a List.mem_cons_self
      have eb := hx b (by simp)
      have ed := hdx a List.mem_cons_self b (by simp)
      simp only [List.map_cons, npInterpR, ea, eb] at ih ⊢
      by_cases h1 : x < a.1
      · rw [if_pos h1, npInterp_left h h1.le]; exact ra
      rw [if_neg h1]
      by_cases h2 : x = a.1
      · rw [if_pos h2, npInterp_left h h2.le]; exact ra
      rw [if_neg h2]
      by_cases h3 : x < b.1
      · rw [if_pos h3, npInterp_step (not_lt.mp h1) h3, ed]
        refine segment_err H hu (by rw [abs_of_nonneg ha.1]; exact ha.2) (by rw [abs_of_nonneg hb.1]; exact hb.2)
          ?_ (sub_pos.mpr hab) (by linarith [not_lt.mp h1]) (by linarith)
        rw [abs_le]; constructor <;> linarith [ha.1, ha.2, hb.1, hb.2]
      · rw [if_neg h3, npInterp_skip hab (not_lt.mp h3)]
        exact ih

/-! ### Conversion to degrees Fahrenheit -/

namespace Quantity

/-- The conversion of a temperature to kelvin. -/
theorem baseR_err (H : fp.Accurate u κ) (hu : (κ + 10) * u ≤ 1 / 100) {q : Quantity} {K : ℝ} (hp : q.phys = K)
    (K0 : 0 ≤ K) (K1 : K ≤ 2000) (o0 : 0 ≤ q.unit.offset) (o1 : q.unit.offset ≤ 300) :
    |q.baseR fp - K| ≤ 2040 * (κ * u) + 4400 * u := by
  have hu0 := H.nonneg
  have κ0 : (0 : ℝ) ≤ κ := Nat.cast_nonneg κ
  have ku0 : 0 ≤ κ * u := mul_nonneg κ0 hu0
  have ku1 : κ * u ≤ 1 / 100 := by nlinarith
  have u1 : u ≤ 1 / 1000 := by nlinarith
  simp only [baseR]
  by_cases he : q.unit = PUnit.base q.unit.dim
  · rw [if_pos he]
    have : q.mag = K := by
      rw [← hp, phys, he]; simp only [PUnit.base]; ring
    rw [this, sub_self, abs_zero]
    positivity
  rw [if_neg he]
  have c1 : |fp.conv q.unit (PUnit.base q.unit.dim) - q.unit.scale| ≤ 1.02 * (κ * u) * q.unit.scale := by
    have hn := H.conv q.unit (PUnit.base q.unit.dim) rfl
    have := Near.bound H.nonneg H.lt_one (by linarith) hn
    rw [show q.unit.scale / (PUnit.base q.unit.dim).scale = q.unit.scale by simp [PUnit.base],
      abs_of_pos q.unit.pos] at this
    refine this.trans (mul_le_mul_of_nonneg_right ?_ q.unit.pos.le)
    rw [div_le_iff₀ (by linarith)]; nlinarith
  generalize fp.conv q.unit (PUnit.base q.unit.dim) = f1 at *
  have hw : |q.mag * q.unit.scale| ≤ 2000 := by
    have : q.mag * q.unit.scale = K - q.unit.offset := by rw [← hp, phys]; ring
    rw [this, abs_le]; constructor <;> linarith
  have eK : q.mag * q.unit.scale = K - q.unit.offset := by rw [← hp, phys]; ring
  have a1 : |q.mag * f1 - q.mag * q.unit.scale| ≤ 2040 * (κ * u) := by
    rw [← mul_sub, abs_mul]
    calc |q.mag| * |f1 - q.unit.scale| ≤ |q.mag| * (1.02 * (κ * u) * q.unit.scale) :=
          mul_le_mul_of_nonneg_left c1 (abs_nonneg _)
      _ = 1.02 * (κ * u) * |q.mag * q.unit.scale| := by rw [abs_mul, abs_of_pos q.unit.pos]; ring
      _ ≤ 1.02 * (κ * u) * 2000 := mul_le_mul_of_nonneg_left hw (by linarith)
      _ = _ := by ring
  have b1 : |q.mag * f1| ≤ 2021 := by
    rw [abs_le] at a1 hw ⊢; constructor <;> linarith [a1.1, a1.2, hw.1, hw.2]
  have r1 := H.rnd_le b1
  generalize fp.rnd (q.mag * f1) = v at *
  have a2 : |v - (K - q.unit.offset)| ≤ 2040 * (κ * u) + 2021 * u := by
    rw [abs_le] at a1 r1 ⊢; constructor <;> linarith [a1.1, a1.2, r1.1, r1.2]
  split
  · rename_i h0
    rw [h0, sub_zero] at a2
    linarith
  · have r2 := H.rnd_le (z := q.unit.offset) (a := 300) (by rw [abs_of_nonneg o0]; exact o1)
    generalize fp.rnd q.unit.offset = o at *
    have b2 : |v + o| ≤ 2060 := by
      rw [abs_le] at a2 r2 ⊢; constructor <;> linarith [a2.1, a2.2, r2.1, r2.2]
    have r3 := H.rnd_le b2
    generalize fp.rnd (v + o) = k at *
    rw [abs_le] at a2 r2 r3 ⊢; constructor <;> linarith [a2.1, a2.2, r2.1, r2.2, r3.1, r3.2]

theorem toDegFR_err (H : fp.Accurate u κ) (hu : (κ + 10) * u ≤ 1 / 100) {q : Quantity} {K : ℝ}
    (hd : q.unit.dim = Dim.temperature) (hp : q.phys = K) (K0 : 0 ≤ K) (K1 : K ≤ 2000)
    (o0 : 0 ≤ q.unit.offset) (o1 : q.unit.offset ≤ 300) :
    ∃ c, q.toDegFR fp = .ok ⟨c, PUnit.degF, q.reg⟩ ∧ |c - (K * (9 / 5) - 459.67)| ≤ (7500 * κ + 16200) * u := by
  have hu0 := H.nonneg
  have κ0 : (0 : ℝ) ≤ κ := Nat.cast_nonneg κ
  have ku0 : 0 ≤ κ * u := mul_nonneg κ0 hu0
  have ku1 : κ * u ≤ 1 / 100 := by nlinarith
  have u1 : u ≤ 1 / 1000 := by nlinarith
  have a3 := baseR_err H hu hp K0 K1 o0 o1
  simp only [toDegFR]
  rw [if_pos (by rw [hd]; rfl)]
  by_cases he : q.unit = PUnit.degF
  · refine ⟨q.mag, if_pos he, ?_⟩
    have : q.mag = K * (9 / 5) - 459.67 := by
      rw [← hp, phys, he]; simp only [PUnit.degF]; ring
    rw [this, sub_self, abs_zero]
    positivity
  rw [if_neg he]
  refine ⟨_, rfl, ?_⟩
  have c2 : |fp.conv PUnit.degF PUnit.kelvin - 5 / 9| ≤ 1.02 * (κ * u) * (5 / 9) := by
    have hn := H.conv PUnit.degF PUnit.kelvin rfl
    have := Near.bound H.nonneg H.lt_one (by linarith) hn
    rw [show PUnit.degF.scale / PUnit.kelvin.scale = 5 / 9 by simp [PUnit.degF, PUnit.kelvin, PUnit.base],
      abs_of_pos (by norm_num : (0 : ℝ) < 5 / 9)] at this
    refine this.trans (mul_le_mul_of_nonneg_right ?_ (by norm_num))
    rw [div_le_iff₀ (by linarith)]; nlinarith
  generalize fp.conv PUnit.degF PUnit.kelvin = f2 at *
  set g := PUnit.degF.offset with hg
  have eg : g = 23315 / 100 + 200 / 9 := rfl
  generalize q.baseR fp = k at *
  have r4 := H.rnd_le (z := g) (a := 256) (by rw [eg]; norm_num [abs_of_pos])
  generalize fp.rnd g = g' at *
  have b4 : |k - g'| ≤ 2100 := by
    rw [abs_le] at a3 r4 ⊢; constructor <;> linarith [a3.1, a3.2, r4.1, r4.2]
  have r5 := H.rnd_le b4
  generalize fp.rnd (k - g') = d at *
  have a5 : |d - (K - g)| ≤ 2040 * (κ * u) + 6756 * u := by
    rw [abs_le] at a3 r4 r5 ⊢; constructor <;> linarith [a3.1, a3.2, r4.1, r4.2, r5.1, r5.2]
  have b5 : |d| ≤ 2100 := by
    rw [abs_le] at a5 ⊢; constructor <;> linarith [a5.1, a5.2]
  have hf2 : 0.549 ≤ f2 := by rw [abs_le] at c2; linarith [c2.1]
  have hf0 : 0 < f2 := by linarith
  have inv : 1 / f2 ≤ 1.822 := by rw [div_le_iff₀ hf0]; linarith
  have inv0 : 0 ≤ 1 / f2 := by positivity
  have dif : |1 / f2 - 9 / 5| ≤ 1.86 * (κ * u) := by
    have e : 1 / f2 - 9 / 5 = -(f2 - 5 / 9) * (9 / 5) * (1 / f2) := by field_simp; ring
    rw [e, abs_mul, abs_mul, abs_neg, abs_of_nonneg inv0, abs_of_pos (by norm_num : (0 : ℝ) < 9 / 5)]
    calc |f2 - 5 / 9| * (9 / 5) * (1 / f2) ≤ (1.02 * (κ * u) * (5 / 9)) * (9 / 5) * 1.822 := by gcongr
      _ ≤ 1.86 * (κ * u) := by linarith
  have hKg : |K - g| ≤ 2000 := by rw [eg, abs_le]; constructor <;> linarith
  have a6 : |d / f2 - (K - g) * (9 / 5)| ≤ 7440 * (κ * u) + 12320 * u := by
    have e : d / f2 - (K - g) * (9 / 5) = (d - (K - g)) * (1 / f2) + (K - g) * (1 / f2 - 9 / 5) := by ring
    have e1 : |(d - (K - g)) * (1 / f2)| ≤ (2040 * (κ * u) + 6756 * u) * 1.822 := by
      rw [abs_mul, abs_of_nonneg inv0]; exact mul_le_mul a5 inv inv0 (by positivity)
    have e2 : |(K - g) * (1 / f2 - 9 / 5)| ≤ 2000 * (1.86 * (κ * u)) := by
      rw [abs_mul]; exact mul_le_mul hKg dif (abs_nonneg _) (by norm_num)
    rw [e]
    exact (abs_add_le _ _).trans (by linarith)
  have b6 : |d / f2| ≤ 3827 := by
    rw [div_eq_mul_one_div, abs_mul, abs_of_nonneg inv0]
    calc |d| * (1 / f2) ≤ 2100 * 1.822 := mul_le_mul b5 inv inv0 (by norm_num)
      _ ≤ 3827 := by norm_num
  have r6 := H.rnd_le b6
  have eT : K * (9 / 5) - 459.67 = (K - g) * (9 / 5) := by rw [eg]; ring
  rw [eT]
  rw [abs_le] at a6 r6 ⊢
  constructor <;> linarith [a6.1, a6.2, r6.1, r6.2]

theorem baseR_exact (q : Quantity) : q.baseR FP.exact = q.phys := by
  simp only [baseR]
  split
  · rename_i h
    rw [phys, h]; simp [PUnit.base]
  · simp only [FP.exact, phys, PUnit.base, div_one]
    split
    · rename_i h; rw [h, add_zero]
    · rfl

theorem toDegFR_exact (q : Quantity) : q.toDegFR FP.exact = q.convert PUnit.degF := by
  simp only [toDegFR, convert, baseR_exact]
  split
  · split
    · rename_i h
      congr 2
      simp only [phys, h, PUnit.degF]; ring
    · congr 2
      simp only [FP.exact, PUnit.kelvin, PUnit.base, div_one]
  · rfl

end Quantity

/-! ### C111: the allowable stress in floating point -/

namespace Tube
open Quantity

/-- The whole numbers up to 2000 are floats. -/
def FP.Ints (fp : FP) : Prop := ∀ n : ℤ, |n| ≤ 2000 → fp.rnd (n : ℝ) = n

theorem double_ints : FP.Ints FP.double := by
  intro n hn
  have := binRnd_exact (p := 53) (k := n) (j := 0) (lt_of_le_of_lt hn (by norm_num))
  change binRnd 53 n = n
  simpa using this

variable {reg : Registry} {x : QIn} {t : ℝ} {i : ℕ} {material : String} {welded : Bool}

theorem npInterpR_exact (x : ℝ) {l : List (ℝ × ℝ)} (h : Inc l) : npInterpR FP.exact x l = npInterp x l := by
  have e : ∀ x, FP.exact.rnd x = x := fun _ => rfl
  induction l with
  | nil => rfl
  | cons a l ih =>
    cases l with
    | nil => rfl
    | cons b l =>
      simp only [npInterpR, npInterp, e, ih h.tail]
      split
      · rfl
      split
      · rename_i h2
        rw [if_pos (h2 ▸ h.1), h2]; ring
      · rfl

/-- With exact arithmetic the rounded `calculate_max_stress` is `calculate_max_stress`. -/
theorem C111_exact (reg : Registry) (x : QIn) (material : String) (welded : Bool) :
    maxStressR FP.exact reg x material welded = maxStress reg x material welded := by
  have e : ∀ x, FP.exact.rnd x = x := fun _ => rfl
  cases hp : parseQ x reg with
  | error => simp only [maxStressR, maxStress, hp, err_bind]
  | ok q =>
    cases hs : stressLimits material welded with
    | error => simp only [maxStressR, maxStress, stressLimitsR, hp, hs, ok_bind, err_bind]
    | ok pts =>
      simp only [maxStressR, maxStress, stressLimitsR, hp, hs, ok_bind, e, Prod.mk.eta, List.map_id', toDegFR_exact]
      split
      · rename_i h; simp only [npInterpR_exact _ h]
      · rfl

/-- Every abscissa of a stress table is a whole number up to 1200. -/
theorem stress_ints {pts : List (ℝ × ℝ)} (h : stressLimits material welded = .ok pts) :
    ∀ p ∈ pts, ∃ n : ℤ, |n| ≤ 1200 ∧ p.1 = n := by
  have key : ∀ r ∈ stressRows welded, |r.1| ≤ 1200 := by cases welded <;> decide +kernel
  intro p hp
  simp only [stressLimits, limits_eq] at h
  split at h
  · cases h
    obtain ⟨r, hr, h2⟩ := List.mem_filterMap.mp hp
    obtain ⟨y, -, rfl⟩ := Option.map_eq_some_iff.mp h2
    exact ⟨r.1, key r hr, rfl⟩
  · cases h

theorem inc_rounded (I : FP.Ints fp) {pts : List (ℝ × ℝ)} (h : ∀ p ∈ pts, ∃ n : ℤ, |n| ≤ 1200 ∧ p.1 = n) :
    Inc (pts.map fun p => (fp.rnd p.1, fp.rnd p.2)) ↔ Inc pts := by
  have hx : ∀ p ∈ pts, fp.rnd p.1 = p.1 := by
    intro p hp
    obtain ⟨n, h1, h2⟩ := h p hp
    rw [h2]; exact I n (by omega)
  induction pts with
  | nil => exact Iff.rfl
  | cons a l ih =>
    cases l with
    | nil => exact Iff.rfl
    | cons b l =>
      have ih := ih (fun p hp => h p (List.mem_cons_of_mem _ hp)) (fun p hp => hx p (List.mem_cons_of_mem _ hp))
      rw [List.map_cons] at ih
      change (fp.rnd a.1 < fp.rnd b.1 ∧ _) ↔ (a.1 < b.1 ∧ _)
      rw [hx a List.mem_cons_self, hx b (by simp)]
      exact and_congr_right fun _ => ih

/-- C111: rounding does not change which arguments are refused, nor the exception. -/
theorem C111_rejects (I : FP.Ints fp) (reg : Registry) (x : QIn) (material : String) (welded : Bool) (e : PyErr) :
    maxStressR fp reg x material welded = .error e ↔ maxStress reg x material welded = .error e := by
  cases hp : parseQ x reg with
  | error => simp only [maxStressR, maxStress, hp, err_bind]
  | ok q =>
    cases hs : stressLimits material welded with
    | error => simp only [maxStressR, maxStress, stressLimitsR, hp, hs, ok_bind, err_bind]
    | ok pts =>
      have hiff := inc_rounded (fp := fp) I (stress_ints hs)
      simp only [maxStressR, maxStress, stressLimitsR, hp, hs, ok_bind]
      by_cases h : Inc pts
      · rw [if_pos h, if_pos (hiff.mpr h)]
        simp only [toDegFR, convert]
        split
        · split <;> simp
        · simp only [err_bind]
      · rw [if_neg h, if_neg (mt hiff.mp h)]

theorem maxStressR_eval (I : FP.Ints fp) {q : Quantity} {c : ℝ} (hq : parseQ x reg = .ok q)
    (hc : q.toDegFR fp = .ok ⟨c, PUnit.degF, q.reg⟩) (hi : (stressCols welded)[i]? = some material) :
    maxStressR fp reg x material welded = .ok ⟨npInterpR fp c ((points i (stressRows welded)).map
      fun p => (fp.rnd p.1, fp.rnd p.2)), PUnit.ksi, reg.id⟩ := by
  have h1 := (points_of_chk (stress_chk welded i (col_lt hi))).1
  have h2 := (inc_rounded I (stress_ints (stressLimits_eq hi))).mpr h1
  simp only [maxStressR, hq, stressLimitsR, stressLimits_eq hi, ok_bind, if_pos h2, hc]

theorem unit_of_parse {q : Quantity} {w : PUnit} (e : parseQ x reg = .ok q) (hw : UnitOf reg x w) : q.unit = w := by
  cases x with
  | quantity q' => cases e; exact hw
  | pair m s =>
    have : reg.parse s = some w := hw
    simp only [parseQ, this] at e
    cases e; rfl
  | other => exact hw.elim

/-- No segment of the tables is steeper than 0.182 ksi per degree. -/
def steepChk (i : ℕ) : List (ℤ × List ℕ) → Bool
  | a :: b :: l => decide (|(b.2.getD i 0 : ℤ) - a.2.getD i 0| * 100 ≤ 182 * (b.1 - a.1)) && steepChk i (b :: l)
  | _ => true

theorem steep_of_chk {i : ℕ} {rows : List (ℤ × List ℕ)} (h : steepChk i rows = true) :
    Steep 0.182 (points i rows) := by
  induction rows with
  | nil => trivial
  | cons a l ih =>
    cases l with
    | nil => trivial
    | cons b l =>
      simp only [steepChk, Bool.and_eq_true, decide_eq_true_eq] at h
      refine ⟨?_, ih h.2⟩
      change |((b.2.getD i 0 : ℕ) : ℝ) / 10 - ((a.2.getD i 0 : ℕ) : ℝ) / 10| ≤ 0.182 * ((b.1 : ℝ) - a.1)
      have h1 : (|((b.2.getD i 0 : ℕ) : ℝ) - ((a.2.getD i 0 : ℕ) : ℝ)|) * 100 ≤ 182 * ((b.1 : ℝ) - a.1) := by
        exact_mod_cast h.1
      rw [← sub_div, abs_div, abs_of_pos (by norm_num : (0 : ℝ) < 10)]
      linarith

theorem stress_steep (welded : Bool) : ∀ i < 7, steepChk i (stressRows welded) = true := by
  cases welded <;> decide +kernel

theorem stress_max (welded : Bool) : ∀ r ∈ stressRows welded, ∀ i < 7, r.2.getD i 0 ≤ 188 := by
  cases welded <;> decide +kernel

/-- C111: in floating point, the allowable stress is within `(1400 κ + 3200) u` ksi of the exact one, at every
temperature from absolute zero to 3140 degF and in every temperature unit (the zero of which is between 0 and 300
kelvin) — nowhere does rounding of the temperature tip the lookup into a wrong row. -/
theorem C111_accuracy (H : fp.Accurate u κ) (hu : (κ + 10) * u ≤ 1 / 100) (I : FP.Ints fp) {w : PUnit}
    (hx : IsDegF reg x t) (hw : UnitOf reg x w) (w0 : 0 ≤ w.offset) (w1 : w.offset ≤ 300)
    (t0 : -459.67 ≤ t) (t1 : t ≤ 3140) (hi : (stressCols welded)[i]? = some material) :
    ∃ s s', maxStress reg x material welded = .ok ⟨s, PUnit.ksi, reg.id⟩ ∧
      maxStressR fp reg x material welded = .ok ⟨s', PUnit.ksi, reg.id⟩ ∧ |s' - s| ≤ (1400 * κ + 3200) * u := by
  have hu0 := H.nonneg
  have κ0 : (0 : ℝ) ≤ κ := Nat.cast_nonneg κ
  have ku0 : 0 ≤ κ * u := mul_nonneg κ0 hu0
  have u1 : u ≤ 1 / 100 := by nlinarith
  obtain ⟨q, e, hd, hp, hr⟩ := parse_any hx
  have hq := unit_of_parse e hw
  obtain ⟨c, hc, hce⟩ := toDegFR_err H hu hd hp (by linarith) (by linarith) (by rw [hq]; exact w0) (by rw [hq]; exact w1)
  refine ⟨_, _, maxStress_eval hx hi, maxStressR_eval I e hc hi, ?_⟩
  have hi7 := col_lt hi
  have h1 := (points_of_chk (stress_chk welded i hi7)).1
  have hne : points i (stressRows welded) ≠ [] := by
    cases welded <;> simp [points, stressRows, Data.weldedRows, Data.seamlessRows]
  have hint := stress_ints (stressLimits_eq hi)
  have hY : ∀ p ∈ points i (stressRows welded), 0 ≤ p.2 ∧ p.2 ≤ 18.8 := by
    intro p hp
    obtain ⟨r, hr, rfl⟩ := List.mem_map.mp hp
    have := stress_max welded r hr i hi7
    have h2 : ((r.2.getD i 0 : ℕ) : ℝ) ≤ 188 := by exact_mod_cast this
    exact ⟨by positivity, by simp only; linarith⟩
  have diff : ∀ p ∈ points i (stressRows welded), ∀ p' ∈ points i (stressRows welded), ∀ n n' : ℤ, p.1 = n →
      p'.1 = n' → |n' - n| ≤ 2000 := by
    have key : ∀ r ∈ stressRows welded, ∀ r' ∈ stressRows welded, |r'.1 - r.1| ≤ 2000 := by
      cases welded <;> decide +kernel
    intro p hp p' hp' n n' hn hn'
    obtain ⟨r, hr, rfl⟩ := List.mem_map.mp hp
    obtain ⟨r', hr', rfl⟩ := List.mem_map.mp hp'
    have e1 : r.1 = n := Int.cast_injective (α := ℝ) hn
    have e2 : r'.1 = n' := Int.cast_injective (α := ℝ) hn'
    rw [← e1, ← e2]
    exact key r hr r' hr'
  have err := npInterpR_err H u1 h1 hne hY
    (fun p hp => by obtain ⟨n, a, b⟩ := hint p hp; rw [b]; exact I n (by omega))
    (fun p hp p' hp' => by
      obtain ⟨n, a, b⟩ := hint p hp
      obtain ⟨n', a', b'⟩ := hint p' hp'
      rw [b, b', ← Int.cast_sub]
      exact I _ (diff _ hp _ hp' n n' b b')) c
  have lip := npInterp_lipschitz' (L := 0.182) (by norm_num) h1 (steep_of_chk (stress_steep welded i hi7)) t c
  have ht : (t + 459.67) * (5 / 9) * (9 / 5) - 459.67 = t := by ring
  rw [ht] at hce
  have tri := abs_add_le (npInterpR fp c ((points i (stressRows welded)).map fun p => (fp.rnd p.1, fp.rnd p.2)) -
    npInterp c (points i (stressRows welded))) (npInterp c (points i (stressRows welded)) -
    npInterp t (points i (stressRows welded)))
  rw [sub_add_sub_cancel] at tri
  nlinarith

theorem npInterpR_knot {a : ℝ × ℝ} (pre : List (ℝ × ℝ)) {l : List (ℝ × ℝ)} (h : Inc (pre ++ a :: l)) :
    npInterpR fp a.1 (pre ++ a :: l) = a.2 := by
  induction pre with
  | nil =>
    cases l with
    | nil => rfl
    | cons b l => simp [npInterpR]
  | cons c pre ih =>
    have ih := ih h.tail
    have hlt : c.1 < a.1 := (List.rel_of_pairwise_cons (Flange.pairwise_of_inc h) (by simp))
    cases hp : pre ++ a :: l with
    | nil => simp at hp
    | cons d m =>
      have hd : d.1 ≤ a.1 := by
        cases pre with
        | nil => cases hp; exact le_rfl
        | cons e pre =>
          cases hp
          exact (List.rel_of_pairwise_cons (Flange.pairwise_of_inc h.tail) (by simp)).le
      rw [List.cons_append, hp]
      rw [hp] at ih
      simp only [npInterpR]
      rw [if_neg (not_lt.mpr hlt.le), if_neg hlt.ne', if_neg (not_lt.mpr hd)]
      exact ih

/-- C111: at a tabulated temperature given in degrees Fahrenheit the allowable stress is the tabulated value (the
float next to it), without any rounding in between. -/
theorem C111_at_table (I : FP.Ints fp) {s : ℕ} {r : ℤ × List ℕ} (hr : r ∈ stressRows welded)
    (hi : (stressCols welded)[i]? = some material) (hs : r.2[i]? = some s) (hx : IsDegF reg x r.1)
    (hw : UnitOf reg x PUnit.degF) :
    maxStressR fp reg x material welded = .ok ⟨fp.rnd (s / 10), PUnit.ksi, reg.id⟩ := by
  obtain ⟨q, e, hd, hp, hr'⟩ := parse_any hx
  have hq := unit_of_parse e hw
  have hm : q.mag = r.1 := by
    rw [phys, hq] at hp
    simp only [PUnit.degF] at hp
    linarith
  have hc : q.toDegFR fp = .ok ⟨r.1, PUnit.degF, q.reg⟩ := by
    simp only [toDegFR]
    rw [if_pos (by rw [hd]; rfl), if_pos hq, hm]
  rw [maxStressR_eval I e hc hi]
  have hinc := (inc_rounded I (stress_ints (stressLimits_eq hi))).mpr (points_of_chk (stress_chk welded i (col_lt hi))).1
  have hint : fp.rnd (r.1 : ℝ) = r.1 := by
    have key : ∀ r ∈ stressRows welded, |r.1| ≤ 2000 := by cases welded <;> decide +kernel
    exact I r.1 (key r hr)
  obtain ⟨pre, post, hp⟩ := List.append_of_mem hr
  rw [hp] at hinc ⊢
  simp only [points, List.map_append, List.map_cons] at hinc ⊢
  have := npInterpR_knot (fp := fp) _ hinc
  rw [hint] at this
  rw [hint, this]
  simp only [List.getD_eq_getElem?_getD, hs, Option.getD_some]

/-- 482 degC in double precision, seamless type 304: the allowable stress is off by less than a billionth of a psi. -/
example : ∃ s s', maxStress reg (.quantity ⟨482, PUnit.degC, 0⟩) "304" false = .ok ⟨s, PUnit.ksi, reg.id⟩ ∧
    maxStressR FP.double reg (.quantity ⟨482, PUnit.degC, 0⟩) "304" false = .ok ⟨s', PUnit.ksi, reg.id⟩ ∧
    |s' - s| ≤ 1e-12 := by
  obtain ⟨s, s', e, e', h⟩ := C111_accuracy (t := 899.6) (i := 0) (w := PUnit.degC) (reg := reg)
    (x := .quantity ⟨482, PUnit.degC, 0⟩) (material := "304") (welded := false)
    FP.double_accurate (by norm_num) double_ints
    ⟨rfl, by simp only [PUnit.degC]; norm_num⟩ rfl (by simp only [PUnit.degC]; norm_num)
    (by simp only [PUnit.degC]; norm_num) (by norm_num) (by norm_num) rfl
  exact ⟨s, s', e, e', h.trans (by norm_num)⟩

/-- 600 degF, welded 316L: exactly the float 8.0. -/
example : maxStressR FP.double reg (.quantity ⟨600, PUnit.degF, 0⟩) "316L" true =
    .ok ⟨FP.double.rnd ((80 : ℕ) / 10), PUnit.ksi, reg.id⟩ :=
  C111_at_table (i := 6) (r := (600, [97, 97, 101, 101, 101, 83, 80])) double_ints (by decide +kernel) rfl rfl
    ⟨rfl, by simp only [PUnit.degF]; norm_num⟩ rfl

/-- A pressure is refused in floating point too. -/
example : maxStressR FP.double reg (.quantity ⟨1, PUnit.bar, 0⟩) "304" true = .error .dimensionality :=
  (C111_rejects double_ints _ _ _ _ _).mpr (by
    have hi : (stressCols true)[0]? = some "304" := rfl
    simp only [maxStress, parseQ, ok_bind, stressLimits_eq hi,
      if_pos (points_of_chk (stress_chk true 0 (col_lt hi))).1, convert]
    rw [if_neg (by decide)]; rfl)

end Tube

end Pypbomb
