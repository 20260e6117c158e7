/-
Property C129: `calculate_max_initial_pressure` with an infinite limit, an infinite tolerance or an infinite pressure
reported by Cantera.
-/
import Verif.Model.InfSearch
import Verif.Lemmas.Inf

namespace Pypbomb
open QX

namespace Xf

@[simp] theorem abs_fin {x : ℝ} : (fin x).abs = fin |x| := rfl
@[simp] theorem abs_pinf : pinf.abs = pinf := rfl
@[simp] theorem abs_ninf : ninf.abs = pinf := rfl
@[simp] theorem abs_nan : nan.abs = nan := rfl

end Xf

/-! ### On numbers -/

/-- The shock states as floats. -/
def liftShockX (s : Tube.Shock) : Tube.ShockX := ⟨ofQ s.cjSpeed, .fin s.cjP, .fin s.reflectedP⟩

/-- The outcome as floats. -/
def liftFoundX (f : Tube.Found) : Tube.FoundX :=
  ⟨ofQ f.pressure, f.dlf, .fin f.error, f.updates, f.evaluated.map ofQ⟩

theorem search_agreesX {shock : Quantity → Py Tube.Shock} {shockX : QX → Py Tube.ShockX} {dlfOf : Quantity → Py ℝ}
    {dlfX : QX → Py ℝ} (hs : ∀ p, shockX (ofQ p) = (shock p).map liftShockX) (hd : ∀ v, dlfX (ofQ v) = dlfOf v)
    {useDlf : Bool} {state : String} {m tol : ℝ} (n : ℕ) : ∀ p s dlf err k ev,
    Tube.searchX shockX dlfX useDlf state (.fin m) (.fin tol) n (ofQ p) (liftShockX s) dlf (.fin err) k (ev.map ofQ) =
      (Tube.search shock dlfOf useDlf state m tol n p s dlf err k ev).map liftFoundX := by
  induction n with
  | zero => intros; rfl
  | succ n ih =>
    intro p s dlf err k ev
    have hsel : ∀ s : Tube.Shock, (liftShockX s).selected state = .fin (s.selected state) := by
      intro s; unfold Tube.ShockX.selected Tube.Shock.selected; split <;> rfl
    have hsp : ∀ s : Tube.Shock, (liftShockX s).cjSpeed = ofQ s.cjSpeed := fun _ => rfl
    have hrp : ∀ s : Tube.Shock, (liftShockX s).reflectedP = .fin s.reflectedP := fun _ => rfl
    have hl : ∀ v, Tube.loopDlfX dlfX useDlf (ofQ v) = Tube.loopDlf dlfOf useDlf v := by
      intro v; unfold Tube.loopDlfX Tube.loopDlf; rw [hd]
    have hev : ∀ (ev : List Quantity) p, ev.map ofQ ++ [ofQ p] = (ev ++ [p]).map ofQ := by simp
    unfold Tube.searchX Tube.search
    simp only [Xf.lt_fin, Xf.abs_fin, decide_eq_true_eq, map_ite', map_bind', hrp, ofQ_scale, bind_map', Xf.mul_fin,
      ofQ_divNum, hs, hsp, hl, Xf.fin_inj, hsel, Xf.sub_fin, Xf.div_fin, hev, ih, map_ok', map_err', liftFoundX]

/-- With numbers only, the function is the one of the other files. -/
theorem C129_agrees {reg : Registry} {shock : Quantity → Py Tube.Shock} {shockX : QX → Py Tube.ShockX}
    {dlfOf : Quantity → Py ℝ} {dlfX : QX → Py ℝ} (hs : ∀ p, shockX (ofQ p) = (shock p).map liftShockX)
    (hd : ∀ v, dlfX (ofQ v) = dlfOf v) (max : Quantity) (useDlf : Bool) (tol : ℝ) (maxIter : ℤ) (state : String) :
    Tube.maxInitialPressureX reg shockX dlfX (ofQ max) useDlf (.fin tol) maxIter state =
      (Tube.maxInitialPressure reg shock dlfOf max useDlf tol maxIter state).map liftFoundX := by
  have hsp : ∀ s : Tube.Shock, (liftShockX s).cjSpeed = ofQ s.cjSpeed := fun _ => rfl
  unfold Tube.maxInitialPressureX Tube.maxInitialPressure
  simp only [map_ite', map_err', mk_fin, hs, bind_map', map_bind', hsp, hd, ofQ_mag, Xf.fin_inj, Xf.mul_fin,
    Xf.sub_fin, Xf.div_fin, Xf.abs_fin, ← search_agreesX hs hd, List.map_cons, List.map_nil]

/-! ### The arguments -/

section
variable {reg : Registry} {shock : QX → Py Tube.ShockX} {dlfOf : QX → Py ℝ} {useDlf : Bool} {maxIter : ℤ}
  {state : String} {s : Tube.ShockX} {f : ℝ}

/-- 1 atm. -/
noncomputable def oneAtmX (reg : Registry) : QX := ⟨.fin 1, PUnit.atm, reg.id⟩

private theorem start (hst : state = "reflected" ∨ state = "cj") (hs : shock (oneAtmX reg) = .ok s)
    (hd : dlfOf s.cjSpeed = .ok f) {max : QX} (hm : max.mag ≠ .fin 0) (tol : Xf) :
    Tube.maxInitialPressureX reg shock dlfOf max useDlf tol maxIter state =
      Tube.searchX shock dlfOf useDlf state max.mag tol.abs maxIter.toNat (oneAtmX reg) s f
        ((((Xf.fin 1).mul (.fin f)).div max.mag).sub (.fin 1)) 0 [oneAtmX reg] := by
  have h0 : ¬ (state ≠ "reflected" ∧ state ≠ "cj") := by tauto
  unfold Tube.maxInitialPressureX
  rw [if_neg h0]
  simp only [oneAtmX] at hs
  simp only [hs, hd, ok_bind, if_neg hm, oneAtmX]

private theorem stop {m tol err : Xf} (h : Xf.lt tol err.abs = false) {n : ℕ} {p : QX} {dlf : ℝ} {k : ℕ}
    {ev : List QX} :
    Tube.searchX shock dlfOf useDlf state m tol n p s dlf err k ev = .ok ⟨p, dlf, err, k, ev⟩ := by
  cases n with
  | zero => rfl
  | succ n => unfold Tube.searchX; rw [if_neg (by simp [h])]

/-- An infinite tolerance (of either sign) returns the first guess, 1 atm, whatever the limit, after no update and with
Cantera asked for no other state; so does every number that is a large enough tolerance. -/
theorem C129_tolerance (hst : state = "reflected" ∨ state = "cj") (hs : shock (oneAtmX reg) = .ok s)
    (hd : dlfOf s.cjSpeed = .ok f) {max : QX} (hm : max.mag ≠ .fin 0) :
    (∀ tol, tol = .pinf ∨ tol = .ninf →
      ∃ e, Tube.maxInitialPressureX reg shock dlfOf max useDlf tol maxIter state =
        .ok ⟨oneAtmX reg, f, e, 0, [oneAtmX reg]⟩) ∧
    ∀ m, max.mag = .fin m → ∀ tol : ℝ, |f / m - 1| ≤ |tol| →
      Tube.maxInitialPressureX reg shock dlfOf max useDlf (.fin tol) maxIter state =
        .ok ⟨oneAtmX reg, f, .fin (f / m - 1), 0, [oneAtmX reg]⟩ := by
  refine ⟨fun tol ht => ⟨_, (start hst hs hd hm tol).trans (stop ?_)⟩, fun m em tol ht => ?_⟩
  · rcases ht with rfl | rfl <;> (generalize Xf.abs (Xf.sub _ _) = y; cases y <;> rfl)
  · rw [start hst hs hd hm, em, stop]
    · simp
    · simpa using ht

/-- An infinite limit with a tolerance below 1 and at least one iteration: exactly one update, to the pressure of
that infinity; Cantera is asked for the shock at this pressure, and unless it refuses (its exception comes out) the
infinity is returned. -/
theorem C129_limit (hst : state = "reflected" ∨ state = "cj") (hs : shock (oneAtmX reg) = .ok s)
    (hd : dlfOf s.cjSpeed = .ok f) {P : ℝ} (hP : s.reflectedP = .fin P) (hfP : 0 < f * P) {max : QX}
    (hm : max.mag = .pinf ∨ max.mag = .ninf) {tol : ℝ} (ht : |tol| < 1) (hi : 0 < maxIter) :
    Tube.maxInitialPressureX reg shock dlfOf max useDlf (.fin tol) maxIter state = (do
      let s1 ← shock ⟨max.mag, PUnit.atm, reg.id⟩
      let f1 ← (if useDlf then dlfOf s1.cjSpeed else .ok 1 : Py ℝ)
      .ok ⟨⟨max.mag, PUnit.atm, reg.id⟩, f1, .nan, 1, [oneAtmX reg, ⟨max.mag, PUnit.atm, reg.id⟩]⟩) := by
  have hm0 : max.mag ≠ .fin 0 := by rcases hm with h | h <;> simp [h]
  obtain ⟨n, hn⟩ : ∃ n, maxIter.toNat = n + 1 := ⟨maxIter.toNat - 1, by omega⟩
  rw [start hst hs hd hm0, hn]
  unfold Tube.searchX
  rw [if_pos (by rcases hm with h | h <;> simp [h, ht])]
  have hp : ((max.mag.mul (.fin 1)).div ((Xf.fin f).mul s.reflectedP)) = max.mag := by
    rcases hm with h | h <;>
      simp [h, hP, Xf.pinf_mul, Xf.ninf_mul, Xf.pinf_div hfP, Xf.ninf_div hfP]
  have hz : ¬ (Xf.fin f).mul s.reflectedP = .fin 0 := by simp [hP, hfP.ne']
  have hatm : PUnit.atm.offset = 0 := rfl
  simp only [QX.scale, QX.noOffset, oneAtmX, hatm, if_true, ok_bind, QX.divNum, if_neg hz, hp, if_neg hm0,
    Tube.loopDlfX, List.cons_append, List.nil_append, zero_add]
  congr 1; funext s1
  congr 1; funext f1
  rw [stop]
  · congr 2
    rcases hm with h | h <;> rw [h] <;> cases (Xf.mul (s1.selected state) (.fin f1)) <;> rfl
  · rcases hm with h | h <;> rw [h] <;> cases (Xf.mul (s1.selected state) (.fin f1)) <;> rfl

/-- An infinite limit gives a number exactly if the tolerance is at least 1 or no iteration is allowed; the number is
then 1 atm. -/
theorem C129_limit_number (hst : state = "reflected" ∨ state = "cj") (hs : shock (oneAtmX reg) = .ok s)
    (hd : dlfOf s.cjSpeed = .ok f) {P : ℝ} (hP : s.reflectedP = .fin P) (hfP : 0 < f * P) {max : QX}
    (hm : max.mag = .pinf ∨ max.mag = .ninf) (tol : ℝ) (p : ℝ) :
    (∃ r, Tube.maxInitialPressureX reg shock dlfOf max useDlf (.fin tol) maxIter state = .ok r ∧
      r.pressure.mag = .fin p) ↔ p = 1 ∧ (1 ≤ |tol| ∨ maxIter ≤ 0) := by
  have hm0 : max.mag ≠ .fin 0 := by rcases hm with h | h <;> simp [h]
  by_cases h : 1 ≤ |tol| ∨ maxIter ≤ 0
  · have hr : ∃ e, Tube.maxInitialPressureX reg shock dlfOf max useDlf (.fin tol) maxIter state =
        .ok ⟨oneAtmX reg, f, e, 0, [oneAtmX reg]⟩ := by
      rw [start hst hs hd hm0]
      rcases h with h | h
      · exact ⟨_, stop (by rcases hm with h' | h' <;> simp [h', h])⟩
      · rw [Int.toNat_of_nonpos h]; exact ⟨_, rfl⟩
    obtain ⟨e, hr⟩ := hr
    simp only [hr, Except.ok.injEq, exists_eq_left', oneAtmX, Xf.fin_inj, h, and_true]
    exact eq_comm
  · push Not at h
    rw [C129_limit hst hs hd hP hfP hm h.1 h.2]
    simp only [not_le.mpr h.1, not_le.mpr h.2, or_self, and_false, iff_false]
    rintro ⟨r, hr, hp⟩
    simp only [bind_eq_ok] at hr
    obtain ⟨s1, -, f1, -, hr⟩ := hr
    cases hr
    dsimp at hp
    rcases hm with h' | h' <;> rw [h'] at hp <;> cases hp

end

/-! ### Infinite pressures from Cantera -/

section
variable {reg : Registry} {shock : QX → Py Tube.ShockX} {dlfOf : QX → Py ℝ} {useDlf : Bool} {maxIter : ℤ}
  {state : String}

private theorem search_trace {m tol : Xf} (n : ℕ) : ∀ {p s dlf err k ev r}, shock p = .ok s → k + n = K →
    (k ≠ 0 → err = (((s.selected state).mul (.fin dlf)).sub m).div m) →
    Tube.searchX shock dlfOf useDlf state m tol n p s dlf err k ev = .ok r →
    ∃ t, r.evaluated = ev ++ t ∧ r.pressure = (p :: t).getLast (by simp) ∧
      List.IsChain (fun a b => ∃ z d, shock a = .ok z ∧ b.mag = (m.mul a.mag).div ((Xf.fin d).mul z.reflectedP)) (p :: t) ∧
      (∃ z, shock r.pressure = .ok z ∧
        (r.updates ≠ 0 → r.error = (((z.selected state).mul (.fin r.dlf)).sub m).div m)) ∧
      (Xf.lt tol r.error.abs = true → r.updates = K) := by
  induction n with
  | zero =>
    intro p s dlf err k ev r hs hk he h
    cases h
    exact ⟨[], by simp, rfl, by simp, ⟨s, hs, he⟩, fun _ => by simpa using hk⟩
  | succ n ih =>
    intro p s dlf err k ev r hs hk he h
    unfold Tube.searchX at h
    split at h
    · simp only [bind_eq_ok] at h
      obtain ⟨q, hq, p1, hp1, s1, hs1, d1, -, h⟩ := h
      split at h
      · cases h
      · obtain ⟨t, h1, h2, h3, h4, h5⟩ := ih hs1 (by omega) (fun _ => rfl) h
        refine ⟨p1 :: t, by simpa using h1, by simpa using h2, ?_, h4, h5⟩
        refine List.isChain_cons_cons.mpr ⟨⟨s, dlf, hs, ?_⟩, h3⟩
        unfold QX.scale at hq
        simp only [bind_eq_ok] at hq
        obtain ⟨-, -, hq⟩ := hq
        cases hq
        unfold QX.divNum at hp1
        simp only [bind_eq_ok] at hp1
        obtain ⟨-, -, hp1⟩ := hp1
        split at hp1
        · cases hp1
        · cases hp1; rfl
    · rename_i hlt
      cases h
      exact ⟨[], by simp, rfl, by simp, ⟨s, hs, he⟩, fun h => absurd h hlt⟩

private theorem call_trace {max : QX} {tol : ℝ} {r : Tube.FoundX}
    (h : Tube.maxInitialPressureX reg shock dlfOf max useDlf (.fin tol) maxIter state = .ok r) :
    max.mag ≠ .fin 0 ∧ ∃ t, r.evaluated = oneAtmX reg :: t ∧ r.pressure = (oneAtmX reg :: t).getLast (by simp) ∧
      List.IsChain (fun a b => ∃ z d, shock a = .ok z ∧
        b.mag = (max.mag.mul a.mag).div ((Xf.fin d).mul z.reflectedP)) (oneAtmX reg :: t) ∧
      (∃ z, shock r.pressure = .ok z ∧
        (r.updates ≠ 0 → r.error = (((z.selected state).mul (.fin r.dlf)).sub max.mag).div max.mag)) ∧
      (Xf.lt (.fin |tol|) r.error.abs = true → r.updates = maxIter.toNat) := by
  unfold Tube.maxInitialPressureX at h
  split at h
  · cases h
  · simp only [bind_eq_ok] at h
    obtain ⟨s, hs, f, -, h⟩ := h
    split at h
    · cases h
    · rename_i hm
      obtain ⟨t, h1, h2, h3, h4, h5⟩ := search_trace (K := maxIter.toNat) maxIter.toNat hs (by simp)
        (fun h => absurd rfl h) h
      exact ⟨hm, t, h1, h2, h3, h4, h5⟩

/-- An infinite pressure of the selected state is never taken for convergence: if the shock at the returned pressure
has one and any update was made, the iteration limit was reached (or the load factor is 0, which it never is). -/
theorem C129_not_converged {max : QX} {m tol : ℝ} (hm : max.mag = .fin m) {r : Tube.FoundX}
    (h : Tube.maxInitialPressureX reg shock dlfOf max useDlf (.fin tol) maxIter state = .ok r) (hu : r.updates ≠ 0)
    (hf : r.dlf ≠ 0) {z : Tube.ShockX} (hz : shock r.pressure = .ok z)
    (hinf : z.selected state = .pinf ∨ z.selected state = .ninf) : r.updates = maxIter := by
  obtain ⟨hm0, t, -, -, -, ⟨z', hz', he⟩, hend⟩ := call_trace h
  rw [hz] at hz'; cases hz'
  rw [hm] at hm0
  have m0 : m ≠ 0 := fun h => hm0 (by rw [h])
  have : r.error = .pinf ∨ r.error = .ninf := by
    rw [he hu, hm]
    rcases hinf with h | h <;> rw [h] <;> rcases lt_or_gt_of_ne hf with hf | hf <;>
      rcases lt_or_gt_of_ne m0 with h0 | h0 <;>
      simp [Xf.mul, Xf.sign, Xf.sub, Xf.add, Xf.neg, Xf.div, sign_pos, sign_neg, hf, h0, Xf.infinity]
  have hlt : Xf.lt (.fin |tol|) r.error.abs = true := by rcases this with h | h <;> rw [h] <;> rfl
  have := hend hlt
  omega

/-- After an infinite reflected pressure the search does not recover: every later trial pressure, and so the result
(the last trial pressure), is 0 or NaN. -/
theorem C129_stuck {max : QX} {m tol : ℝ} (hm : max.mag = .fin m) {r : Tube.FoundX}
    (h : Tube.maxInitialPressureX reg shock dlfOf max useDlf (.fin tol) maxIter state = .ok r) {pre post : List QX}
    {p : QX} (hev : r.evaluated = pre ++ p :: post) {z : Tube.ShockX} (hz : shock p = .ok z)
    (hinf : z.reflectedP = .pinf ∨ z.reflectedP = .ninf) :
    (∀ q ∈ post, q.mag = .fin 0 ∨ q.mag = .nan) ∧ r.pressure = (p :: post).getLast (by simp) := by
  obtain ⟨-, t, h1, h2, h3, -, -⟩ := call_trace h
  rw [hm] at h3
  have hl : oneAtmX reg :: t = pre ++ p :: post := by rw [← h1, hev]
  have hlast : r.pressure = (p :: post).getLast (by simp) := by
    rw [h2]; simp only [hl]; rw [List.getLast_append_of_ne_nil]
  refine ⟨?_, hlast⟩
  -- no trial pressure is infinite
  have hfin : ∀ (l : List QX), List.IsChain (fun a b => ∃ z d, shock a = .ok z ∧
        b.mag = ((Xf.fin m).mul a.mag).div ((Xf.fin d).mul z.reflectedP)) l →
      (∀ a ∈ l.head?, (∃ x, a.mag = .fin x) ∨ a.mag = .nan) → ∀ a ∈ l, (∃ x, a.mag = .fin x) ∨ a.mag = .nan := by
    intro l
    induction l with
    | nil => simp
    | cons a l ih =>
      intro hc ha b hb
      have ha' := ha a (by simp)
      rcases List.mem_cons.mp hb with rfl | hb
      · exact ha'
      · refine ih hc.of_cons ?_ b hb
        intro c hcl
        cases l with
        | nil => simp at hcl
        | cons c' l =>
          simp at hcl; subst hcl
          obtain ⟨⟨z, d, -, e⟩, -⟩ := List.isChain_cons_cons.mp hc
          rw [e]
          rcases ha' with ⟨x, hx⟩ | hx
          · rw [hx]
            generalize (Xf.fin d).mul z.reflectedP = y
            cases y <;> simp
          · rw [hx]; simp
  have hp : (∃ x, p.mag = .fin x) ∨ p.mag = .nan :=
    hfin _ h3 (by simp [oneAtmX]) p (by rw [hl]; simp)
  rw [hl] at h3
  have h4 := (List.isChain_append.mp h3).2.1
  -- zero or NaN stays
  have stay : ∀ (l : List QX) (a : QX), List.IsChain (fun a b => ∃ z d, shock a = .ok z ∧
        b.mag = ((Xf.fin m).mul a.mag).div ((Xf.fin d).mul z.reflectedP)) (a :: l) →
      (a.mag = .fin 0 ∨ a.mag = .nan) → ∀ b ∈ l, b.mag = .fin 0 ∨ b.mag = .nan := by
    intro l
    induction l with
    | nil => simp
    | cons c l ih =>
      intro a hc ha b hb
      obtain ⟨⟨z, d, -, e⟩, hc'⟩ := List.isChain_cons_cons.mp hc
      have hcm : c.mag = .fin 0 ∨ c.mag = .nan := by
        rw [e]
        rcases ha with hx | hx
        · rw [hx]
          generalize (Xf.fin d).mul z.reflectedP = y
          cases y <;> simp
        · rw [hx]; simp
      rcases List.mem_cons.mp hb with rfl | hb
      · exact hcm
      · exact ih c hc' hcm b hb
  intro q hq
  cases post with
  | nil => simp at hq
  | cons c post =>
    obtain ⟨⟨z', d, hz', e⟩, hc'⟩ := List.isChain_cons_cons.mp h4
    rw [hz] at hz'; cases hz'
    have hcm : c.mag = .fin 0 ∨ c.mag = .nan := by
      rw [e]
      have hy : (Xf.fin d).mul z.reflectedP = .nan ∨ (Xf.fin d).mul z.reflectedP = .pinf ∨
          (Xf.fin d).mul z.reflectedP = .ninf := by
        rcases hinf with h | h <;> rw [h] <;> rcases lt_trichotomy d 0 with h0 | h0 | h0 <;>
          simp [Xf.mul, Xf.sign, h0, Xf.infinity, sign_pos, sign_neg]
      rcases hp with ⟨x, hx⟩ | hx
      · rw [hx]; rcases hy with hy | hy | hy <;> rw [hy] <;> simp
      · rw [hx]; simp
    rcases List.mem_cons.mp hq with rfl | hq
    · exact hcm
    · exact stay _ c hc' hcm q hq

end

/-! ### Concrete cases -/

/-- A mixture whose reflected pressure is 40 times the initial pressure, at any pressure, and a load factor 2: the
hypotheses of `C129_limit`; the answer to an infinite limit is infinite. -/
example (reg : Registry) : ∃ r, Tube.maxInitialPressureX reg
    (fun p => .ok ⟨⟨.fin 2000, PUnit.meterPerSecond, reg.id⟩, (Xf.fin 16).mul (p.mag.mul (.fin 101325)),
      (Xf.fin 40).mul (p.mag.mul (.fin 101325))⟩)
    (fun _ => .ok 2) ⟨.pinf, PUnit.pascal, reg.id⟩ true (.fin 1e-4) 500 "reflected" = .ok r ∧
      r.pressure = ⟨.pinf, PUnit.atm, reg.id⟩ ∧ r.updates = 1 := by
  rw [C129_limit (P := 40 * (1 * 101325)) (f := 2) (.inl rfl) rfl rfl (by simp [oneAtmX]) (by norm_num) (.inl rfl)
    (by norm_num) (by norm_num)]
  exact ⟨_, rfl, rfl, rfl⟩

/-- A Cantera that reports an infinite reflected pressure at 1 atm: the next trial pressure, and with it the result, is
0 (`C129_stuck`), and the iteration limit is reached (`C129_not_converged`). -/
example (reg : Registry) : Tube.maxInitialPressureX reg
    (fun _ => .ok ⟨⟨.fin 2000, PUnit.meterPerSecond, reg.id⟩, .fin 1600000, .pinf⟩)
    (fun _ => .ok 2) ⟨.fin 1000000, PUnit.pascal, reg.id⟩ true (.fin 1e-4) 1 "reflected" =
      .ok ⟨⟨.fin 0, PUnit.atm, reg.id⟩, 2, .pinf, 1, [oneAtmX reg, ⟨.fin 0, PUnit.atm, reg.id⟩]⟩ := by
  have hatm : PUnit.atm.offset = 0 := rfl
  have h1 : (1e-4 : ℝ) < |2 / 1000000 - 1| := by rw [abs_of_neg (by norm_num)]; norm_num
  have h2 : |(1e-4 : ℝ)| = 1e-4 := abs_of_pos (by norm_num)
  unfold Tube.maxInitialPressureX
  simp only [Tube.searchX, ok_bind, Xf.abs_fin, h2, Xf.mul_fin, Xf.div_fin, Xf.sub_fin, one_mul, Xf.lt_fin, h1, if_true,
    decide_true, QX.scale, QX.noOffset, hatm, QX.divNum, Tube.loopDlfX, Tube.ShockX.selected,
    Xf.mul_pinf (show (0 : ℝ) < 2 by norm_num), Xf.div_pinf, oneAtmX, Int.toNat_one]
  norm_num
  rw [if_neg (by simp)]
  simp [Xf.pinf_mul (show (0 : ℝ) < 2 by norm_num), Xf.pinf_div (show (0 : ℝ) < 1000000 by norm_num)]

end Pypbomb
