/-
C132: array arguments of `calculate_run_up`, of the flame speed and sound speed it uses, of the flange look-ups and of the initial
pressure search are handled element by element, or refused.
-/
import Verif.Props.VectorTube
import Verif.Props.RunUp
import Verif.Props.Flange
import Verif.Model.VectorRunUp
import Verif.Props.MaxInitial

namespace Pypbomb
open Quantity

variable {n : ℕ} {reg : Registry} {i : Fin (n + 1)} {α β α' β' : Type}

/-- What Python says when an array of several elements is to become one number. -/
def notOneNumber : PyErr := .typeError "only size-1 arrays can be converted to Python scalars"

/-- What NumPy's `interp` says about a two-dimensional argument. -/
def tooDeep : PyErr := .valueError "object too deep for desired array"

namespace VectorRunUp
open VectorTube

/-- As `Rel`, but the array run, if there is more than one element, may also end with `notOneNumber`. -/
def RelF (n : ℕ) (R : α → β → Prop) (s : Py α) (v : Py β) : Prop := (n ≠ 0 ∧ v = .error notOneNumber) ∨ Rel R s v

theorem RelF.bind {R : α → β → Prop} {S : α' → β' → Prop} {s : Py α} {v : Py β} {f : α → Py α'} {g : β → Py β'}
    (h : RelF n R s v) (hf : ∀ a b, R a b → RelF n S (f a) (g b)) : RelF n S (s >>= f) (v >>= g) := by
  rcases h with ⟨hn, rfl⟩ | h
  · exact .inl ⟨hn, rfl⟩
  cases s with
  | ok a => obtain ⟨b, rfl, hR⟩ := h; exact hf a b hR
  | error e =>
    rcases h with h | rfl
    · exact .inr (.inl h)
    · exact .inr (.inr rfl)

theorem toF {R : α → β → Prop} {s : Py α} {v : Py β} (h : Rel R s v) : RelF n R s v := .inr h

theorem RelF.same {s : Py α} : RelF n Eq s s := .inr (Rel.refl s)

theorem okF {R : α → β → Prop} {s : Py α} {v : Py β} {a : α} (h : RelF n R s v) (hs : s = .ok a) :
    (n ≠ 0 ∧ v = .error notOneNumber) ∨ ∃ b, v = .ok b ∧ R a b := by
  rcases h with h | h
  · exact .inl h
  · subst hs
    exact .inr h

theorem toFloat_zero {x : ℝ} {v : VN n} (h : v.get 0 = some x) : RelF n Eq (.ok x) v.toFloat := by
  cases v with
  | one y =>
    have : y = x := by simpa [VN.get] using h
    subst this
    exact .inr ⟨_, rfl, rfl⟩
  | arr a =>
    have h : a 0 = some x := h
    unfold VN.toFloat
    by_cases hn : n = 0
    · simp only [if_pos hn, h]
      exact .inr ⟨_, rfl, rfl⟩
    · simp only [if_neg hn]
      exact .inl ⟨hn, rfl⟩

theorem toFloat_arr {v : VN n} (hn : n ≠ 0) (h : v.isArr = true) : v.toFloat = .error notOneNumber := by
  cases v with
  | one y => simp [VN.isArr] at h
  | arr a => simp [VN.toFloat, hn, notOneNumber]

theorem convert_isArr {v w : VQ n} {u : PUnit} (h : v.convert u = .ok w) : w.mag.isArr = v.isArr := by
  rw [mag_isArr]
  exact isArr_lift₁ h

variable {ct : Cantera} {species : ct.Species} {mech phase : String} {T P : AIn n}

open Thermochem in
theorem laminar_zero : RelF n Eq (laminarFlameSpeed ct reg (T.elem 0) (P.elem 0) species mech phase)
    (laminarFlameSpeedV ct reg T P species mech phase) := by
  unfold laminarFlameSpeed laminarFlameSpeedV
  refine RelF.same.bind fun g g' hg => ?_
  subst hg
  refine (toF (relV_parse P reg 0)).bind fun p vp hp => (toF (relV_parse T reg 0)).bind fun t vt ht =>
    (toF (relV_check hp _ _)).bind fun _ _ _ => (toF (relV_check ht _ _)).bind fun _ _ _ =>
    (toF (ht.convert _)).bind fun t' vt' ht => (toF (hp.convert _)).bind fun p' vp' hp => ?_
  have e1 := toFloat_zero ht.mag
  have e2 := toFloat_zero hp.mag
  have : ct.setTPX g t'.mag p'.mag species = (do let a ← .ok t'.mag; let b ← .ok p'.mag; ct.setTPX g a b species) := rfl
  rw [this]
  simp only [bind_assoc]
  refine e1.bind fun _ _ h => e2.bind fun _ _ h' => ?_
  subst h h'
  exact RelF.same

open Thermochem in
theorem sound_zero : RelF n Eq (eqSoundSpeed ct reg (T.elem 0) (P.elem 0) species mech phase)
    (eqSoundSpeedV ct reg T P species mech phase) := by
  unfold eqSoundSpeed eqSoundSpeedV
  refine (toF (relV_parse P reg 0)).bind fun p vp hp => (toF (relV_parse T reg 0)).bind fun t vt ht =>
    (toF (relV_check hp _ _)).bind fun _ _ _ => (toF (relV_check ht _ _)).bind fun _ _ _ => ?_
  refine RelF.same.bind fun g g' hg => ?_
  subst hg
  refine (toF (ht.convert _)).bind fun t' vt' ht => (toF (hp.convert _)).bind fun p' vp' hp => ?_
  have e1 := toFloat_zero ht.mag
  have e2 := toFloat_zero hp.mag
  have : ct.setTPX g t'.mag p'.mag species = (do let a ← .ok t'.mag; let b ← .ok p'.mag; ct.setTPX g a b species) := rfl
  rw [this]
  simp only [bind_assoc]
  refine e1.bind fun _ _ h => e2.bind fun _ _ h' => ?_
  subst h h'
  exact RelF.same

open Thermochem in
theorem laminar_never {x : Quantity} (hn : n ≠ 0) (h : T.isArray = true ∨ P.isArray = true) :
    laminarFlameSpeedV ct reg T P species mech phase ≠ .ok x := by
  intro ho
  simp only [laminarFlameSpeedV, bind_eq_ok] at ho
  obtain ⟨g, _, p, hp, t, ht, _, _, _, _, t', ht', p', hp', a, ha, b, hb, _⟩ := ho
  rcases h with h | h
  · rw [toFloat_arr hn (by rw [convert_isArr ht', parse_arr ht, h])] at ha
    cases ha
  · rw [toFloat_arr hn (by rw [convert_isArr hp', parse_arr hp, h])] at hb
    cases hb

open Thermochem in
theorem sound_never {x : Quantity} (hn : n ≠ 0) (h : T.isArray = true ∨ P.isArray = true) :
    eqSoundSpeedV ct reg T P species mech phase ≠ .ok x := by
  intro ho
  simp only [eqSoundSpeedV, bind_eq_ok] at ho
  obtain ⟨p, hp, t, ht, _, _, _, _, g, _, t', ht', p', hp', a, ha, b, hb, _⟩ := ho
  rcases h with h | h
  · rw [toFloat_arr hn (by rw [convert_isArr ht', parse_arr ht, h])] at ha
    cases ha
  · rw [toFloat_arr hn (by rw [convert_isArr hp', parse_arr hp, h])] at hb
    cases hb

theorem refusedF {R : α → β → Prop} {s : Py α} {v : Py β} {a : α} (h : RelF n R s v) (hv : ∀ b, v ≠ .ok b)
    (hs : s = .ok a) : v = .error notOneNumber := by
  rcases okF h hs with ⟨_, h⟩ | ⟨b, hb, _⟩
  · exact h
  · exact absurd hb (hv b)

/-! ### The correlations -/

theorem rdiv_elem {k : ℝ} {q : Quantity} {v : VQ n} (h : VSim i q v) : Rel (VSim i) (Quantity.rdiv k q) (VQ.rdiv k v) := by
  refine rel_lift₁ (fun q a h => ?_) h
  unfold Quantity.rdiv QArr.rdiv
  refine (rel_noOffset h).bind fun _ _ _ => ?_
  split
  · exact .inl (.inl rfl)
  · rename_i h0
    exact Rel.ok ⟨by simp [h.mag, h0], by simp [h.unit], h.reg⟩

theorem log_elem {q : Quantity} {v : VQ n} (h : VSim i q v) : Rel (fun x (w : VN n) => w.get i = some x) q.log v.log := by
  cases v with
  | one q' =>
    have : q' = q := by simpa [VSim, VQ.get] using h
    subst this
    exact (Rel.refl _).mapR _ fun _ _ h => by subst h; rfl
  | arr a =>
    have h := vsim_arr.mp h
    refine Rel.mapR (R := fun x (w : Fin (n + 1) → Option ℝ) => w i = some x) _ ?_ fun _ _ h => h
    unfold Quantity.log QArr.log
    rw [h.unit]
    split
    · split
      · exact .inl (.inr rfl)
      · rename_i h0
        exact Rel.ok (by simpa [h.mag, Quantity.phys] using h0)
    · exact .inr rfl

theorem affine_elem {k c x : ℝ} {v : VN n} (h : v.get i = some x) : (v.affine k c).get i = some (k * x + c) := by
  cases v with
  | one y =>
    have : y = x := by simpa [VN.get] using h
    subst this
    rfl
  | arr a =>
    have h : a i = some x := h
    simp [VN.affine, VN.get, h]

theorem mulNs_elem {k : ℝ} {K : VN n} {q : Quantity} {v : VQ n} (hk : K.get i = some k) (h : VSim i q v) :
    Rel (VSim i) (Quantity.scale k q) (VQ.mulNs K v) := by
  cases K with
  | one k' =>
    have : k' = k := by simpa [VN.get] using hk
    subst this
    exact h.scale _
  | arr k' =>
    have hb := h.bcast
    have hk : k' i = some k := hk
    have key : Rel (VSim i) (Quantity.scale k q) (do
        QArr.noOffset v.bcast
        .ok (.arr ⟨QArr.zip (fun x y => some (x * y)) k' v.bcast.mag, v.bcast.unit, v.bcast.reg⟩)) := by
      unfold Quantity.scale
      exact (rel_noOffset hb).bind fun _ _ _ =>
        Rel.ok (vsim_arr.mpr ⟨by simp [QArr.zip, hb.mag, hk], hb.unit, hb.reg⟩)
    exact key

open DDT

theorem same {γ : Type} {R : α → β → Prop} {s : Py γ} {f : γ → Py α} {g : γ → Py β} (h : ∀ x, Rel R (f x) (g x)) :
    Rel R (s >>= f) (s >>= g) := (Rel.refl s).bind fun _ _ e => by subst e; exact h _

theorem eq41_elem {r : ℕ} {rho mu sigma br : ℝ} {laminar sound tube : Quantity} {v : VQ n} (h : VSim i tube v) :
    Rel (VSim i) (eq41 r rho mu laminar sound sigma tube br) (eq41V r rho mu laminar sound sigma v br) := by
  unfold eq41 eq41V
  refine same fun nu => same fun delta => same fun den => same fun a => ((vsim_one _).div h).bind fun _ _ hb =>
    (hb.pow _).bind fun _ _ hb => ((vsim_one _).mul hb).bind fun _ _ hab => (hab.pow _).bind fun _ _ hg =>
    same fun d => (hg.divNum _).bind fun _ _ hgc => (hg.scale _).bind fun _ _ hgd => (log_elem hgd).bind fun _ _ hl =>
    (mulNs_elem (affine_elem hl) hgc).bind fun _ _ h1 => (h1.mul h).bind fun _ _ h2 => ?_
  rw [h.unit]
  exact h2.convert _

theorem eq44_elem {sigma br : ℝ} {laminar sound tube : Quantity} {v : VQ n} (h : VSim i tube v) :
    Rel (VSim i) (eq44 laminar sound sigma tube br) (eq44V laminar sound sigma v br) := by
  unfold eq44 eq44V
  refine same fun l1 => same fun l2 => ((vsim_one _).mul h).bind fun _ _ hc => ((vsim_one _).div hc).bind fun _ _ hl =>
    same fun rhs => (rdiv_elem hl).bind fun _ _ hr => ?_
  rw [h.unit]
  exact hr.convert _

/-- Outside the range where the correlations are interpolated. -/
theorem choice_elem {rhoMu : Py (ℝ × ℝ)} {sigma br : ℝ} {laminar sound tube : Quantity} {v : VQ n} (h : VSim i tube v)
    (hb : br ≤ 0.1 ∨ 0.3 ≤ br) (hr : br ≤ 0.75) :
    Rel (VSim i) (runUpChoice reg rhoMu laminar sound sigma tube br) (runUpChoiceV reg rhoMu laminar sound sigma v br) := by
  unfold runUpChoice runUpChoiceV
  split
  · exact eq44_elem h
  · rename_i h1
    have h2 : br ≤ 0.1 := by
      rcases hb with hb | hb
      · exact hb
      · exact absurd ⟨hb, hr⟩ h1
    rw [if_pos h2, if_pos h2]
    exact same fun rm => eq41_elem h

theorem map_bind' {γ δ : Type} (s : Py α) (f : α → Py γ) (g : γ → δ) :
    (s >>= f).map g = s >>= fun a => (f a).map g := by cases s <;> rfl

theorem bind_map' {γ δ : Type} (s : Py α) (g : α → γ) (f : γ → Py δ) :
    (s.map g) >>= f = s >>= fun a => f (g a) := by cases s <;> rfl

/-- Scalars: nothing changes. -/
theorem eq41_one {r : ℕ} {rho mu sigma br : ℝ} {laminar sound tube : Quantity} :
    eq41V (n := n) r rho mu laminar sound sigma (.one tube) br =
      (eq41 r rho mu laminar sound sigma tube br).map .one := by
  simp only [eq41V, eq41, VQ.div, VQ.mul, VQ.pow, VQ.divNum, VQ.scale, VQ.convert, VQ.lift₁, VQ.lift₂, VQ.log, VQ.mulNs, VN.affine,
    VQ.unit, map_bind', bind_map']

theorem eq44_one {sigma br : ℝ} {laminar sound tube : Quantity} :
    eq44V (n := n) laminar sound sigma (.one tube) br = (eq44 laminar sound sigma tube br).map .one := by
  simp only [eq44V, eq44, VQ.div, VQ.mul, VQ.rdiv, VQ.convert, VQ.lift₁, VQ.lift₂, VQ.unit, map_bind', bind_map']

theorem choice_one {rhoMu : Py (ℝ × ℝ)} {sigma br : ℝ} {laminar sound tube : Quantity} :
    runUpChoiceV (n := n) reg rhoMu laminar sound sigma (.one tube) br =
      (runUpChoice reg rhoMu laminar sound sigma tube br).map .one := by
  unfold runUpChoiceV runUpChoice
  split
  · exact eq44_one
  · split
    · rw [map_bind']
      simp only [eq41_one]
    · simp only [map_bind', eq41_one, eq44_one, bind_map']
      rfl

theorem eq41_isArr {r : ℕ} {rho mu sigma br : ℝ} {laminar sound : Quantity} {a : QArr n} {o : VQ n}
    (h : eq41V r rho mu laminar sound sigma (.arr a) br = .ok o) : o.isArr = true := by
  simp only [eq41V, bind_eq_ok] at h
  obtain ⟨_, _, _, _, _, _, _, _, b, hb, b3, hb3, ab, hab, g, hg, _, _, gc, hgc, gd, hgd, lg, hlg, t1, ht1, t2, ht2, h⟩ := h
  rw [isArr_lift₁ h, isArr_lift₂ ht2]
  simp [VQ.isArr]

/-- In the range where the correlations are interpolated, an array of tube diameters is refused, even one with one element. -/
theorem choice_gap {rhoMu : Py (ℝ × ℝ)} {sigma br : ℝ} {laminar sound tube : Quantity} {a : QArr n} {q : Quantity}
    (h : VSim i tube (.arr a)) (h1 : 0.1 < br) (h3 : br < 0.3)
    (hq : runUpChoice reg rhoMu laminar sound sigma tube br = .ok q) :
    runUpChoiceV reg rhoMu laminar sound sigma (.arr a) br = .error tooDeep := by
  unfold runUpChoice at hq
  unfold runUpChoiceV
  rw [if_neg (fun h => absurd h.1 (not_le.mpr h3)), if_neg (not_le.mpr h1)] at hq ⊢
  obtain ⟨rm, hrm, hq⟩ := bind_eq_ok.mp hq
  obtain ⟨q1, hq1, hq⟩ := bind_eq_ok.mp hq
  obtain ⟨q4, hq4, hq⟩ := bind_eq_ok.mp hq
  have e1 := eq41_elem (r := reg.id) (rho := rm.1) (mu := rm.2) (sigma := sigma) (br := br) (laminar := laminar) (sound := sound) h
  rw [hq1] at e1
  obtain ⟨v1, hv1, -⟩ := e1
  have e4 := eq44_elem (sigma := sigma) (br := br) (laminar := laminar) (sound := sound) h
  rw [hq4] at e4
  obtain ⟨v4, hv4, -⟩ := e4
  have i1 := eq41_isArr hv1
  rw [hrm, ok_bind, hv1, ok_bind, hv4, ok_bind]
  cases v1 with
  | one q => simp [VQ.isArr] at i1
  | arr b => rfl

theorem choice_gap_never {rhoMu : Py (ℝ × ℝ)} {sigma br : ℝ} {laminar sound : Quantity} {a : QArr n} {o : VQ n}
    (h1 : 0.1 < br) (h3 : br < 0.3) : runUpChoiceV reg rhoMu laminar sound sigma (.arr a) br ≠ .ok o := by
  intro h
  unfold runUpChoiceV at h
  rw [if_neg (fun h => absurd h.1 (not_le.mpr h3)), if_neg (not_le.mpr h1)] at h
  simp only [bind_eq_ok] at h
  obtain ⟨rm, hrm, q1, hq1, q4, hq4, h⟩ := h
  have i1 := eq41_isArr hq1
  cases q1 with
  | one q => simp [VQ.isArr] at i1
  | arr b => simp [betweenV] at h

/-! ### The whole call -/

theorem laminar_scalar {x y : QIn} :
    Thermochem.laminarFlameSpeedV (n := n) ct reg (.scalar x) (.scalar y) species mech phase =
      Thermochem.laminarFlameSpeed ct reg x y species mech phase := by
  simp only [Thermochem.laminarFlameSpeedV, Thermochem.laminarFlameSpeed, parseV, bind_map', checkV, VQ.convert, VQ.lift₁, VQ.mag,
    VN.toFloat, ok_bind]

theorem sound_scalar {x y : QIn} :
    Thermochem.eqSoundSpeedV (n := n) ct reg (.scalar x) (.scalar y) species mech phase =
      Thermochem.eqSoundSpeed ct reg x y species mech phase := by
  simp only [Thermochem.eqSoundSpeedV, Thermochem.eqSoundSpeed, parseV, bind_map', checkV, VQ.convert, VQ.lift₁, VQ.mag,
    VN.toFloat, ok_bind]

variable {D : AIn n} {br : NumIn}

theorem pass_one (q : Quantity) : Bolt.pass (n := n) (.one q) = .scalar (.quantity q) := rfl

/-- Scalars: nothing changes. -/
theorem runUp_scalar {xD xT xP : QIn} : runUpV (n := n) ct reg br (.scalar xD) (.scalar xT) (.scalar xP) species mech phase =
    (runUp ct reg br xD xT xP species mech phase).map .one := by
  unfold runUpV runUp
  cases br with
  | num br =>
    dsimp only
    split
    · rfl
    · simp only [map_bind', parseV, bind_map', checkV, pass_one, laminar_scalar, VQ.convert, VQ.lift₁, VQ.mag, VN.toFloat, ok_bind,
        choice_one]
  | str x => rfl
  | other => rfl

/-- Element `0`. -/
theorem runUp_zero (hb : ∀ x, br = .num x → x ≤ 0.1 ∨ 0.3 ≤ x ∨ D.isArray = false) :
    RelF n (VSim 0) (runUp ct reg br (D.elem 0) (T.elem 0) (P.elem 0) species mech phase)
      (runUpV ct reg br D T P species mech phase) := by
  unfold runUpV runUp
  cases br with
  | str x => exact .inr (.inr rfl)
  | other => exact .inr (.inr rfl)
  | num br =>
    have hb := hb br rfl
    dsimp only
    by_cases hr : br ≤ 0 ∨ 0.75 < br
    · rw [if_pos hr, if_pos hr]
      exact .inr (.inr rfl)
    rw [if_neg hr, if_neg hr]
    rw [not_or, not_lt] at hr
    have hD : RelF n (fun q v => VSim 0 q v ∧ v.isArr = D.isArray) (parseQ (D.elem 0) reg) (parseV D reg) := by
      have h := relV_parse D reg 0
      cases hs : parseQ (D.elem 0) reg with
      | error e => rw [hs] at h; exact .inr h
      | ok q =>
        rw [hs] at h
        obtain ⟨v, hv, h⟩ := h
        exact .inr ⟨v, hv, h, parse_arr hv⟩
    refine hD.bind fun d vd hd => (toF (relV_parse T reg 0)).bind fun t vt ht =>
      (toF (relV_parse P reg 0)).bind fun p vp hp =>
      (toF (relV_check hd.1 _ _)).bind fun _ _ _ => (toF (relV_check ht _ _)).bind fun _ _ _ =>
      (toF (relV_check hp _ _)).bind fun _ _ _ => ?_
    have hl := laminar_zero (ct := ct) (reg := reg) (species := species) (mech := mech) (phase := phase) (T := Bolt.pass vt)
      (P := Bolt.pass vp)
    rw [pass_elem ht, pass_elem hp] at hl
    refine hl.bind fun l l' hl => ?_
    subst hl
    refine RelF.same.bind fun g g' hg => ?_
    subst hg
    refine (toF (ht.convert _)).bind fun t' vt' ht' => (toF (hp.convert _)).bind fun p' vp' hp' => ?_
    have e1 := toFloat_zero ht'.mag
    have e2 := toFloat_zero hp'.mag
    rcases e1 with ⟨hn, e1⟩ | ⟨tt, e1, rfl⟩
    · rw [e1]; exact .inl ⟨hn, rfl⟩
    rcases e2 with ⟨hn, e2⟩ | ⟨pp, e2, rfl⟩
    · rw [e1, e2]; exact .inl ⟨hn, rfl⟩
    rw [e1, e2]
    simp only [ok_bind]
    refine toF (same fun u => same fun b => same fun w => same fun s => ?_)
    rcases hb with hb | hb | hb
    · exact choice_elem hd.1 (.inl hb) hr.2
    · exact choice_elem hd.1 (.inr hb) hr.2
    · cases vd with
      | arr a => rw [hb] at hd; simp [VQ.isArr] at hd
      | one q =>
        have : q = d := by simpa [VSim, VQ.get] using hd.1
        subst this
        rw [choice_one]
        exact (Rel.refl _).mapR _ fun _ _ h => by subst h; rfl

/-- Any element, if the temperature and the pressure are scalars. -/
theorem runUp_elem {xT xP : QIn} (hb : ∀ x, br = .num x → x ≤ 0.1 ∨ 0.3 ≤ x) :
    Rel2 (VSim i) (runUp ct reg br (D.elem i) xT xP species mech phase)
      (runUpV ct reg br D (.scalar xT) (.scalar xP) species mech phase) := by
  have no : ∀ e : PyErr, Rel2 (VSim i) (.error e) (.error e : Py (VQ n)) := by
    intro e a b h; cases h
  unfold runUpV runUp
  cases br with
  | str x => exact no _
  | other => exact no _
  | num br =>
    have hb := hb br rfl
    dsimp only
    by_cases hr : br ≤ 0 ∨ 0.75 < br
    · rw [if_pos hr, if_pos hr]
      exact no _
    rw [if_neg hr, if_neg hr]
    rw [not_or, not_lt] at hr
    refine (relV_parse D reg i).weaken.bind fun d vd hd => ?_
    simp only [parseV, bind_map', checkV, pass_one, laminar_scalar, VQ.convert, VQ.lift₁, VQ.mag, VN.toFloat, ok_bind]
    have same2 : ∀ {γ : Type} {s : Py γ} {f : γ → Py Quantity} {g : γ → Py (VQ n)}, (∀ x, Rel2 (VSim i) (f x) (g x)) →
        Rel2 (VSim i) (s >>= f) (s >>= g) := fun h => (Rel.refl _).weaken.bind fun _ _ e => by subst e; exact h _
    exact same2 fun t => same2 fun p => Rel2.any.bind fun _ _ _ => same2 fun _ => same2 fun _ => same2 fun l => same2 fun g =>
      same2 fun t' => same2 fun p' => same2 fun u => same2 fun b => same2 fun w => same2 fun s =>
        (choice_elem hd hb hr.2).weaken

theorem runUp_never {o : VQ n} (hn : n ≠ 0) (h : T.isArray = true ∨ P.isArray = true) :
    runUpV ct reg br D T P species mech phase ≠ .ok o := by
  intro ho
  unfold runUpV at ho
  cases br with
  | str x => cases ho
  | other => cases ho
  | num br =>
    dsimp only at ho
    split at ho
    · cases ho
    simp only [bind_eq_ok] at ho
    obtain ⟨d, hd, t, ht, p, hp, _, _, _, _, _, _, l, hl, _⟩ := ho
    refine laminar_never hn ?_ hl
    rwa [pass_isArr, pass_isArr, parse_arr ht, parse_arr hp]

/-- Once the call on the first diameter returns, the array call reaches the choice of the correlation with the same numbers. -/
theorem runUp_reaches {xT xP : QIn} {br : ℝ} {q : Quantity}
    (h : runUp ct reg (.num br) (D.elem 0) xT xP species mech phase = .ok q) :
    0 < br ∧ br ≤ 0.75 ∧ ∃ rhoMu laminar sound sigma d v, parseQ (D.elem 0) reg = .ok d ∧ parseV D reg = .ok v ∧
      runUpChoice reg rhoMu laminar sound sigma d br = .ok q ∧
      runUpV ct reg (.num br) D (.scalar xT) (.scalar xP) species mech phase =
        runUpChoiceV reg rhoMu laminar sound sigma v br := by
  unfold runUp at h
  dsimp only at h
  by_cases hr : br ≤ 0 ∨ 0.75 < br
  · rw [if_pos hr] at h; cases h
  rw [if_neg hr] at h
  have hr' := hr
  rw [not_or, not_lt, not_le] at hr'
  simp only [bind_eq_ok] at h
  obtain ⟨d, hd, t, ht, p, hp, x1, hx1, x2, hx2, x3, hx3, l, hl, g, hg, t', ht', p', hp', u, hu, b, hb, w, hw, s, hs, h⟩ := h
  have e := relV_parse D reg 0
  rw [hd] at e
  obtain ⟨v, hv, hdv⟩ := e
  have c := relV_check hdv "length" true
  rw [hx1] at c
  obtain ⟨c', hc, -⟩ := c
  refine ⟨hr'.1, hr'.2, _, l, s, _, d, v, hd, hv, h, ?_⟩
  unfold runUpV
  dsimp only
  rw [if_neg hr]
  have ps : ∀ x, parseV (n := n) (.scalar x) reg = (parseQ x reg).map .one := fun _ => rfl
  have cs : ∀ q k b, checkV (n := n) (.one q) k b = checkQ q k b := fun _ _ _ => rfl
  simp only [hv, ps, cs, bind_map', pass_one, laminar_scalar, VQ.convert, VQ.lift₁, VQ.mag, VN.toFloat, ok_bind, ht, hp, hx2, hx3,
    hl, hg, ht', hp', hu, hb, hw, hs, hc]

theorem runUp_gap_never {br : ℝ} {o : VQ n} (h : D.isArray = true) (h1 : 0.1 < br) (h3 : br < 0.3) :
    runUpV ct reg (.num br) D T P species mech phase ≠ .ok o := by
  intro ho
  unfold runUpV at ho
  dsimp only at ho
  split at ho
  · cases ho
  simp only [bind_eq_ok] at ho
  obtain ⟨d, hd, t, ht, p, hp, x1, hx1, x2, hx2, x3, hx3, l, hl, g, hg, t', ht', p', hp', tf, _, pf, _, u, hu, b, hb, w, hw, s, hs,
    ho⟩ := ho
  have hd := parse_arr hd
  rw [h] at hd
  cases d with
  | one q => simp [VQ.isArr] at hd
  | arr a => exact choice_gap_never h1 h3 ho

/-- Eq. 4.4 is proportional to the tube diameter, whatever its sign. -/
theorem eq44_other {sigma br x y : ℝ} {laminar sound q : Quantity} {u : PUnit} {r : ℕ} (hy : y ≠ 0)
    (h : eq44 laminar sound sigma ⟨x, u, r⟩ br = .ok q) :
    eq44 laminar sound sigma ⟨y, u, r⟩ br = .ok ⟨q.mag / x * y, q.unit, q.reg⟩ := by
  simp only [eq44, bind_eq_ok] at h
  obtain ⟨l1, h1, l2, h2, c, hc, l, hl, k, hk, o, ho, h⟩ := h
  simp only [eq44, h1, h2, hk, ok_bind]
  simp only [Quantity.mul, Quantity.sameReg, Quantity.noOffset, bind_eq_ok] at hc
  obtain ⟨_, c1, _, c2, _, c3, hc⟩ := hc
  cases hc
  simp only [Quantity.div, Quantity.sameReg, Quantity.noOffset, bind_eq_ok] at hl
  obtain ⟨_, d1, _, d2, _, d3, hl⟩ := hl
  split at hl
  · cases hl
  rename_i hne
  cases hl
  simp only [Quantity.rdiv, Quantity.noOffset, bind_eq_ok] at ho
  obtain ⟨_, f1, ho⟩ := ho
  split at ho
  · cases ho
  rename_i hne'
  cases ho
  unfold Quantity.convert at h
  split at h
  · rename_i hd
    cases h
    dsimp only at hne hne' c1 c2 c3 d1 d2 d3 f1 hd ⊢
    have s0 : sound.mag ≠ 0 := left_ne_zero_of_mul hne
    have x0 : x ≠ 0 := right_ne_zero_of_mul hne
    have l0 : l2.mag ≠ 0 := (div_ne_zero_iff.mp hne').1
    have z1 : sound.mag * y ≠ 0 := mul_ne_zero s0 hy
    have z2 : l2.mag / (sound.mag * y) ≠ 0 := div_ne_zero l0 z1
    simp only [Quantity.mul, Quantity.div, Quantity.rdiv, Quantity.sameReg, Quantity.noOffset, c1, c2, c3, d1, d2, d3, f1, ok_bind, if_neg z1,
      if_neg z2]
    unfold Quantity.convert
    rw [if_pos hd]
    have u0 : u.offset = 0 := by
      by_contra hc
      rw [if_neg hc] at c3
      cases c3
    simp only [Quantity.phys, PUnit.div, PUnit.mul, u0]
    congr 2
    have := u.pos.ne'
    have := l2.unit.pos.ne'
    have := sound.unit.pos.ne'
    field_simp
    try ring
  · cases h

end VectorRunUp

/-! ## The properties -/

open VectorTube VectorRunUp DDT

variable {ct : Cantera} {species : ct.Species} {mech phase : String} {D T P : AIn n} {xD xT xP : QIn} {br : ℝ}

/-- C132: for blockage ratios up to 0.1 and from 0.3 on: if every tube diameter on its own is a valid call, `calculate_run_up` on the
array of diameters returns the array of the results. -/
theorem C132_run_up_elementwise {q : Fin (n + 1) → Quantity} (hb : br ≤ 0.1 ∨ 0.3 ≤ br)
    (h : ∀ i, runUp ct reg (.num br) (D.elem i) xT xP species mech phase = .ok (q i)) :
    ∃ R, runUpV ct reg (.num br) D (.scalar xT) (.scalar xP) species mech phase = .ok R ∧ ∀ i, R.get i = some (q i) := by
  obtain ⟨b0, b1, M, l, s, σ, d, v, hd, hv, hc, hV⟩ := runUp_reaches (h 0)
  have e0 := relV_parse D reg 0
  rw [hd, hv] at e0
  obtain ⟨v', hv', e0⟩ := e0
  cases hv'
  have e := choice_elem (reg := reg) (rhoMu := M) (sigma := σ) (laminar := l) (sound := s) e0 hb b1
  rw [hc] at e
  obtain ⟨R, hR, -⟩ := e
  refine ⟨R, hV.trans hR, fun i => ?_⟩
  exact runUp_elem (br := .num br) (fun x hx => by cases hx; exact hb) _ _ (h i) (hV.trans hR)

/-- C132: for blockage ratios between 0.1 and 0.3 an array of tube diameters is refused, even one with a single element: no result is
ever returned, and where the call on the first diameter returns, NumPy refuses the interpolation. -/
theorem C132_run_up_between_refused (hD : D.isArray = true) (h1 : 0.1 < br) (h3 : br < 0.3) :
    (∀ R, runUpV ct reg (.num br) D T P species mech phase ≠ .ok R) ∧
    ∀ q, runUp ct reg (.num br) (D.elem 0) xT xP species mech phase = .ok q →
      runUpV ct reg (.num br) D (.scalar xT) (.scalar xP) species mech phase = .error tooDeep := by
  refine ⟨fun R => runUp_gap_never hD h1 h3, fun q h => ?_⟩
  obtain ⟨b0, b1, M, l, s, σ, d, v, hd, hv, hc, hV⟩ := runUp_reaches h
  have e0 := relV_parse D reg 0
  rw [hd, hv] at e0
  obtain ⟨v', hv', e0⟩ := e0
  cases hv'
  have hv := parse_arr hv
  cases v with
  | one q => rw [hD] at hv; simp [VQ.isArr] at hv
  | arr a => exact hV.trans (choice_gap e0 h1 h3 hc)

/-- C132: an array of more than one temperature or pressure is refused by the flame speed, the sound speed and the run-up: no result is
ever returned, and where the call on the first elements returns, the refusal is the failed conversion to one number. -/
theorem C132_gas_arrays_refused (hn : n ≠ 0) (h : T.isArray = true ∨ P.isArray = true) :
    ((∀ q, Thermochem.laminarFlameSpeedV ct reg T P species mech phase ≠ .ok q) ∧
      ∀ q, Thermochem.laminarFlameSpeed ct reg (T.elem 0) (P.elem 0) species mech phase = .ok q →
        Thermochem.laminarFlameSpeedV ct reg T P species mech phase = .error notOneNumber) ∧
    ((∀ q, Thermochem.eqSoundSpeedV ct reg T P species mech phase ≠ .ok q) ∧
      ∀ q, Thermochem.eqSoundSpeed ct reg (T.elem 0) (P.elem 0) species mech phase = .ok q →
        Thermochem.eqSoundSpeedV ct reg T P species mech phase = .error notOneNumber) ∧
    (∀ R, runUpV ct reg (.num br) D T P species mech phase ≠ .ok R) ∧
      ∀ q, (br ≤ 0.1 ∨ 0.3 ≤ br ∨ D.isArray = false) →
        runUp ct reg (.num br) (D.elem 0) (T.elem 0) (P.elem 0) species mech phase = .ok q →
          runUpV ct reg (.num br) D T P species mech phase = .error notOneNumber :=
  ⟨⟨fun _ => laminar_never hn h, fun _ => refusedF laminar_zero fun _ => laminar_never hn h⟩,
    ⟨fun _ => sound_never hn h, fun _ => refusedF sound_zero fun _ => sound_never hn h⟩,
    fun _ => runUp_never hn h, fun _ hb => refusedF (runUp_zero fun x hx => by cases hx; exact hb) fun _ => runUp_never hn h⟩

/-- C132: arrays of one element behave as scalars, and so do scalars. -/
theorem C132_one_element {D T P : AIn 0} :
    (∀ q, Thermochem.laminarFlameSpeed ct reg (T.elem 0) (P.elem 0) species mech phase = .ok q →
      Thermochem.laminarFlameSpeedV ct reg T P species mech phase = .ok q) ∧
    (∀ q, Thermochem.eqSoundSpeed ct reg (T.elem 0) (P.elem 0) species mech phase = .ok q →
      Thermochem.eqSoundSpeedV ct reg T P species mech phase = .ok q) ∧
    ∀ q, (br ≤ 0.1 ∨ 0.3 ≤ br ∨ D.isArray = false) →
      runUp ct reg (.num br) (D.elem 0) (T.elem 0) (P.elem 0) species mech phase = .ok q →
        ∃ R, runUpV ct reg (.num br) D T P species mech phase = .ok R ∧ R.get 0 = some q := by
  refine ⟨fun q h => ?_, fun q h => ?_, fun q hb h => ?_⟩
  · rcases okF laminar_zero h with ⟨h, _⟩ | ⟨b, hb, rfl⟩
    · exact absurd rfl h
    · exact hb
  · rcases okF sound_zero h with ⟨h, _⟩ | ⟨b, hb, rfl⟩
    · exact absurd rfl h
    · exact hb
  · rcases okF (runUp_zero fun x hx => by cases hx; exact hb) h with ⟨h, _⟩ | h
    · exact absurd rfl h
    · exact h

/-- C132: with scalar arguments the array functions are the scalar ones. -/
theorem C132_scalars : runUpV (n := n) ct reg (.num br) (.scalar xD) (.scalar xT) (.scalar xP) species mech phase =
    (runUp ct reg (.num br) xD xT xP species mech phase).map .one ∧
    Thermochem.laminarFlameSpeedV (n := n) ct reg (.scalar xT) (.scalar xP) species mech phase =
      Thermochem.laminarFlameSpeed ct reg xT xP species mech phase ∧
    Thermochem.eqSoundSpeedV (n := n) ct reg (.scalar xT) (.scalar xP) species mech phase =
      Thermochem.eqSoundSpeed ct reg xT xP species mech phase :=
  ⟨runUp_scalar, laminar_scalar, sound_scalar⟩

/-- C132, what `calculate_run_up` does with an array of diameters in general, from a blockage ratio of 0.3 on: only the sign of the
first diameter is examined; each result is proportional to its diameter, negative ones included. -/
theorem C132_run_up_proportional {m : Fin (n + 1) → ℝ} {u : PUnit} {r : ℕ} {q : Quantity} (h3 : 0.3 ≤ br)
    (h : runUp ct reg (.num br) (.quantity ⟨m 0, u, r⟩) xT xP species mech phase = .ok q) :
    ∃ R, runUpV ct reg (.num br) (.quantity m u r) (.scalar xT) (.scalar xP) species mech phase = .ok R ∧
      ∀ i, m i ≠ 0 → R.get i = some ⟨q.mag / m 0 * m i, q.unit, q.reg⟩ := by
  obtain ⟨b0, b1, M, l, s, σ, d, v, hd, hv, hc, hV⟩ := runUp_reaches (D := .quantity m u r) h
  cases hd
  cases hv
  have e0 : VSim 0 ⟨m 0, u, reg.id⟩ (.arr (⟨fun i => some (m i), u, reg.id⟩ : QArr n)) := vsim_arr.mpr ⟨rfl, rfl, rfl⟩
  have e := choice_elem (reg := reg) (rhoMu := M) (sigma := σ) (laminar := l) (sound := s) e0 (.inr h3) b1
  rw [hc] at e
  obtain ⟨R, hR, -⟩ := e
  refine ⟨R, hV.trans hR, fun i hi => ?_⟩
  have ei : VSim i ⟨m i, u, reg.id⟩ (.arr (⟨fun i => some (m i), u, reg.id⟩ : QArr n)) := vsim_arr.mpr ⟨rfl, rfl, rfl⟩
  have e := choice_elem (reg := reg) (rhoMu := M) (sigma := σ) (laminar := l) (sound := s) ei (.inr h3) b1
  unfold runUpChoice at hc
  rw [if_pos ⟨h3, b1⟩] at hc
  have e' : runUpChoice reg M l s σ ⟨m i, u, reg.id⟩ br = .ok ⟨q.mag / m 0 * m i, q.unit, q.reg⟩ := by
    unfold runUpChoice
    rw [if_pos ⟨h3, b1⟩]
    exact eq44_other hi hc
  rw [e', hR] at e
  obtain ⟨R', hR', e⟩ := e
  cases hR'
  exact e

/-! ### Flanges -/

namespace VectorRunUp
open Flange

theorem maxPressure_zero {q : Quantity} {v : VQ n} (h : VSim 0 q v) (hi : ℝ) (r : ℕ) :
    RelT n Eq (checkMaxPressure q hi r) (checkMaxPressureV v hi r) := by
  unfold checkMaxPressure checkMaxPressureV
  refine (rel_lt (vsim_one _) h).bind fun a b e => ?_
  subst e
  cases a
  · exact .inr (Rel.refl _)
  · exact .inr (Rel.refl _)

theorem range_zero {q : Quantity} {v : VQ n} (h : VSim 0 q v) (lo hi : ℝ) (u : PUnit) (r : ℕ) (msg : String) :
    RelT n Eq (checkRange q lo hi u r msg) (checkRangeV v lo hi u r msg) := by
  unfold checkRange checkRangeV
  refine (rel_lt h (vsim_one _)).bind fun a b e => (rel_lt (vsim_one _) h).bind fun a' b' e' => ?_
  subst e e'
  exact .inr (Rel.refl _)

theorem maxPressure_never {v : VQ n} {hi : ℝ} {r : ℕ} {x : Unit} (hn : n ≠ 0) (hv : v.isArr = true) :
    checkMaxPressureV v hi r ≠ .ok x := by
  intro h
  unfold checkMaxPressureV at h
  obtain ⟨a, ha, -⟩ := bind_eq_ok.mp h
  exact lt_arr hn (.inr hv) ha

theorem range_never {v : VQ n} {lo hi : ℝ} {u : PUnit} {r : ℕ} {msg : String} {x : Unit} (hn : n ≠ 0) (hv : v.isArr = true) :
    checkRangeV v lo hi u r msg ≠ .ok x := by
  intro h
  unfold checkRangeV at h
  obtain ⟨a, ha, -⟩ := bind_eq_ok.mp h
  exact lt_arr hn (.inl hv) ha

/-- The parsed arguments of an array call and of the call on its first elements. -/
theorem parse_ok {x : AIn n} {q : Quantity} (h : parseQ (x.elem 0) reg = .ok q) :
    ∃ v, parseV x reg = .ok v ∧ VSim 0 q v ∧ v.isArr = x.isArray := by
  have e := relV_parse x reg 0
  rw [h] at e
  obtain ⟨v, hv, e⟩ := e
  exact ⟨v, hv, e, parse_arr hv⟩

theorem check_ok {q : Quantity} {v : VQ n} {kind : String} {pos : Bool} {x : Unit} (e : VSim 0 q v)
    (h : checkQ q kind pos = .ok x) : checkV v kind pos = .ok () := by
  have c := relV_check e kind pos
  rw [h] at c
  obtain ⟨c', hc, -⟩ := c
  exact hc

variable {u : Registry} {cls : String} {material : Tube.MatIn} {X Y : AIn n}

theorem class_never {c : String} (hn : n ≠ 0) (h : X.isArray = true ∨ Y.isArray = true) :
    getClassV u reg X Y material ≠ .ok c := by
  intro ho
  simp only [getClassV, withLimits, bind_eq_ok] at ho
  obtain ⟨l, _, p, hp, t, ht, _, _, _, _, g, _, k, _, m, hm, r, hr, _⟩ := ho
  rcases h with h | h
  · exact maxPressure_never hn (by rw [rereg_isArr, parse_arr hp, h]) hm
  · exact range_never hn (by rw [rereg_isArr, parse_arr ht, h]) hr

theorem class_ambiguous {c : String} (hn : n ≠ 0) (h : X.isArray = true ∨ Y.isArray = true)
    (hc : getClass u reg (X.elem 0) (Y.elem 0) material = .ok c) : getClassV u reg X Y material = .error .ambiguousTruth := by
  simp only [getClass, withLimits, bind_eq_ok] at hc
  obtain ⟨l, hl, p, hp, t, ht, c1, hc1, c2, hc2, p', hp', t', ht', g, hg, k, hk, m, hm, r, hr, _⟩ := hc
  cases hp'
  cases ht'
  obtain ⟨vp, hvp, ep, ap⟩ := parse_ok hp
  obtain ⟨vt, hvt, et, at'⟩ := parse_ok ht
  have ep' : VSim 0 ⟨p.mag, p.unit, u.id⟩ (vp.rereg u) := rereg_sim (reg := u) ep
  have et' : VSim 0 ⟨t.mag, t.unit, u.id⟩ (vt.rereg u) := rereg_sim (reg := u) et
  unfold getClassV withLimits
  simp only [hl, hvp, hvt, check_ok ep hc1, check_ok et hc2, hg, hk, ok_bind]
  rcases ok_of (maxPressure_zero ep' _ _) hm with ⟨_, e⟩ | ⟨b, e, _⟩
  · rw [e]; rfl
  rw [e, ok_bind]
  rcases ok_of (range_zero et' _ _ _ _ _) hr with ⟨_, e2⟩ | ⟨b, e2, _⟩
  · rw [e2]; rfl
  exfalso
  rcases h with h | h
  · exact maxPressure_never hn (by rw [rereg_isArr, ap, h]) e
  · exact range_never hn (by rw [rereg_isArr, at', h]) e2

theorem rating_never {q : Quantity} (hn : n ≠ 0) (h : X.isArray = true) : getMaxPressureV u cls X material ≠ .ok q := by
  intro ho
  simp only [getMaxPressureV, withLimits, bind_eq_ok] at ho
  obtain ⟨l, _, g, _, _, _, t, ht, r, hr, _⟩ := ho
  exact range_never hn (by rw [parse_arr ht, h]) hr

theorem rating_ambiguous {q : Quantity} (hn : n ≠ 0) (h : X.isArray = true)
    (hc : getMaxPressure u cls (X.elem 0) material = .ok q) : getMaxPressureV u cls X material = .error .ambiguousTruth := by
  simp only [getMaxPressure, withLimits, bind_eq_ok] at hc
  obtain ⟨l, hl, g, hg, c, hc, t, ht, r, hr, _⟩ := hc
  obtain ⟨vt, hvt, et, at'⟩ := parse_ok ht
  unfold getMaxPressureV withLimits
  simp only [hl, hvt, hc, hg, ok_bind]
  rcases ok_of (range_zero et _ _ _ _ _) hr with ⟨_, e2⟩ | ⟨b, e2, _⟩
  · rw [e2]; rfl
  · exact absurd e2 (range_never hn (by rw [at', h]))

theorem temperature_never {q : Quantity} (hn : n ≠ 0) (h : X.isArray = true) : getMaxTemperatureV u cls X material ≠ .ok q := by
  intro ho
  simp only [getMaxTemperatureV, withLimits, bind_eq_ok] at ho
  obtain ⟨l, _, g, _, _, _, p, hp, ho⟩ := ho
  split at ho
  · cases ho
  obtain ⟨r, hr, _⟩ := bind_eq_ok.mp ho
  exact range_never hn (by rw [parse_arr hp, h]) hr

theorem temperature_ambiguous {q : Quantity} (hn : n ≠ 0) (h : X.isArray = true)
    (hc : getMaxTemperature u cls (X.elem 0) material = .ok q) :
    getMaxTemperatureV u cls X material = .error .ambiguousTruth := by
  simp only [getMaxTemperature, withLimits, bind_eq_ok] at hc
  obtain ⟨l, hl, g, hg, c, hc, p, hp, ho⟩ := hc
  obtain ⟨vp, hvp, ep, ap⟩ := parse_ok hp
  split at ho
  · cases ho
  rename_i hcls
  obtain ⟨r, hr, _⟩ := bind_eq_ok.mp ho
  unfold getMaxTemperatureV withLimits
  simp only [hl, hvp, hc, hg, ok_bind, if_neg hcls]
  rcases ok_of (range_zero ep _ _ _ _ _) hr with ⟨_, e2⟩ | ⟨b, e2, _⟩
  · rw [e2]; rfl
  · exact absurd e2 (range_never hn (by rw [ap, h]))

theorem range_one {q : Quantity} {lo hi : ℝ} {u : PUnit} {r : ℕ} {msg : String} :
    checkRangeV (n := n) (.one q) lo hi u r msg = checkRange q lo hi u r msg := rfl

theorem maxPressure_one {q : Quantity} {hi : ℝ} {r : ℕ} : checkMaxPressureV (n := n) (.one q) hi r = checkMaxPressure q hi r := rfl

theorem rereg_one (q : Quantity) : VQ.rereg (n := n) u (.one q) = .one ⟨q.mag, q.unit, u.id⟩ := rfl

end VectorRunUp

open Flange

variable {u : Registry} {cls : String} {material : Tube.MatIn} {X Y : AIn n} {x y : QIn}

/-- C132: `Flange.get_class`, `get_max_pressure` and `get_max_temperature` refuse arrays of more than one element: no result is ever
returned, and where the call on the first elements returns, the refusal is the ambiguous truth value of the range check. -/
theorem C132_flange_refused (hn : n ≠ 0) :
    (X.isArray = true ∨ Y.isArray = true → (∀ c, getClassV u reg X Y material ≠ .ok c) ∧
      ∀ c, getClass u reg (X.elem 0) (Y.elem 0) material = .ok c → getClassV u reg X Y material = .error .ambiguousTruth) ∧
    (X.isArray = true → (∀ q, getMaxPressureV u cls X material ≠ .ok q) ∧
      ∀ q, getMaxPressure u cls (X.elem 0) material = .ok q → getMaxPressureV u cls X material = .error .ambiguousTruth) ∧
    (X.isArray = true → (∀ q, getMaxTemperatureV u cls X material ≠ .ok q) ∧
      ∀ q, getMaxTemperature u cls (X.elem 0) material = .ok q → getMaxTemperatureV u cls X material = .error .ambiguousTruth) :=
  ⟨fun h => ⟨fun _ => class_never hn h, fun _ => class_ambiguous hn h⟩,
    fun h => ⟨fun _ => rating_never hn h, fun _ => rating_ambiguous hn h⟩,
    fun h => ⟨fun _ => temperature_never hn h, fun _ => temperature_ambiguous hn h⟩⟩

/-- C132: with scalar arguments the array look-ups are the scalar ones. -/
theorem C132_flange_scalars : getClassV (n := n) u reg (.scalar x) (.scalar y) material = getClass u reg x y material ∧
    getMaxPressureV (n := n) u cls (.scalar x) material = getMaxPressure u cls x material ∧
    getMaxTemperatureV (n := n) u cls (.scalar x) material = getMaxTemperature u cls x material := by
  have ps : ∀ (x : QIn) (r : Registry), parseV (n := n) (.scalar x) r = (parseQ x r).map .one := fun _ _ => rfl
  have cs : ∀ q k b, checkV (n := n) (.one q) k b = checkQ q k b := fun _ _ _ => rfl
  have al : ∀ q, alone (n := n) (.one q) = .ok q := fun _ => rfl
  have pq : ∀ q : Quantity, parseQ (.quantity q) u = .ok ⟨q.mag, q.unit, u.id⟩ := fun _ => rfl
  have rr : ∀ x, outRegV (n := n) u (.scalar x) = outReg u x := fun _ => rfl
  refine ⟨?_, ?_, ?_⟩
  · unfold getClassV getClass
    simp only [ps, bind_map', cs, rereg_one, range_one, maxPressure_one, al, ok_bind, pq]
  · unfold getMaxPressureV getMaxPressure
    simp only [ps, bind_map', range_one, al, ok_bind, rr]
  · unfold getMaxTemperatureV getMaxTemperature
    simp only [ps, bind_map', range_one, al, ok_bind, rr]

/-! ### The shock state and the initial pressure -/

namespace VectorRunUp
open Tube SD

variable {collect : Collect} {t p mx : VQ n} {qt qp qm : Quantity}

theorem shockState_zero (ht : VSim 0 qt t) (hp : VSim 0 qp p) :
    RelF n Eq (reflectedShockState ct collect reg qt qp species mech) (reflectedShockStateV ct collect reg t p species mech) := by
  unfold reflectedShockState reflectedShockStateV
  refine RelF.same.bind fun g g' hg => ?_
  subst hg
  refine RelF.same.bind fun g2 g' hg => ?_
  subst hg
  refine (toF (ht.convert _)).bind fun t' vt' ht => (toF (hp.convert _)).bind fun p' vp' hp => ?_
  rcases toFloat_zero ht.mag with ⟨hn, e1⟩ | ⟨tt, e1, rfl⟩
  · rw [e1]; exact .inl ⟨hn, rfl⟩
  rcases toFloat_zero hp.mag with ⟨hn, e2⟩ | ⟨pp, e2, rfl⟩
  · rw [e1, e2]; exact .inl ⟨hn, rfl⟩
  rw [e1, e2]
  simp only [ok_bind]
  exact RelF.same

theorem shockState_never {x : ShockState ct} (hn : n ≠ 0) (h : t.isArr = true ∨ p.isArr = true) :
    reflectedShockStateV ct collect reg t p species mech ≠ .ok x := by
  intro ho
  simp only [reflectedShockStateV, bind_eq_ok] at ho
  obtain ⟨g, _, g2, _, t', ht', p', hp', a, ha, b, hb, _⟩ := ho
  rcases h with h | h
  · rw [toFloat_arr hn (by rw [convert_isArr ht', h])] at ha
    cases ha
  · rw [toFloat_arr hn (by rw [convert_isArr hp', h])] at hb
    cases hb

theorem shockState_scalar : reflectedShockStateV (n := n) ct collect reg (.one qt) (.one qp) species mech =
    reflectedShockState ct collect reg qt qp species mech := by
  simp only [reflectedShockStateV, reflectedShockState, VQ.convert, VQ.lift₁, VQ.mag, VN.toFloat, ok_bind, bind_map']
  rfl

variable {a b c d : AIn n} {po pm tol : ℝ} {useDlf : Bool} {maxIter : ℤ} {state : String}

theorem loadFactor_scalar {a b v c d : QIn} :
    dynamicLoadFactorV (n := n) (.scalar a) (.scalar b) (.scalar v) (.scalar c) (.scalar d) po pm =
      dynamicLoadFactor a b v c d po pm := by
  have ck : ∀ (x : QIn) k p, checkedV (n := n) (.scalar x) k p = (checked x k p).map .one := by
    intro x k p
    cases x with
    | quantity q => unfold checkedV checked; rw [map_bind']; rfl
    | pair m u => rfl
    | other => rfl
  unfold dynamicLoadFactorV dynamicLoadFactor critVelocityV critVelocity
  simp only [ck, bind_map', VQ.add, VQ.sub, VQ.mul, VQ.div, VQ.divNum, VQ.scale, VQ.pow, VQ.convert, VQ.lift₁, VQ.lift₂, VQ.mag, VN.cond,
    ok_bind, bind_assoc, decide_eq_true_eq]

theorem initial_never {f : Found} (hn : n ≠ 0) (h : a.isArray = true ∨ b.isArray = true ∨ t.isArr = true ∨ mx.isArr = true ∨
    c.isArray = true ∨ d.isArray = true) :
    initialPressureSearchV ct collect reg a b t species mech mx c d po pm useDlf tol maxIter state ≠ .ok f := by
  intro ho
  unfold initialPressureSearchV at ho
  split at ho
  · cases ho
  simp only [bind_eq_ok] at ho
  obtain ⟨s, hs, l, hl, e, he, m, hm, -⟩ := ho
  rcases h with h | h | h | h | h | h
  · exact loadFactor_never hn (.inl h) hl
  · exact loadFactor_never hn (.inr (.inl h)) hl
  · unfold gasShockV at hs
    obtain ⟨s', hs', -⟩ := bind_eq_ok.mp hs
    exact shockState_never hn (.inl h) hs'
  · have : e.isArr = true := by
      cases mx with
      | one q => simp [VQ.isArr] at h
      | arr q => cases he; rfl
    rw [cond_arr hn (.inl this)] at hm
    cases hm
  · exact loadFactor_never hn (.inr (.inr (.inr (.inl h)))) hl
  · exact loadFactor_never hn (.inr (.inr (.inr (.inr h)))) hl

theorem initial_refused {f : Found} (hn : n ≠ 0) (h : a.isArray = true ∨ b.isArray = true ∨ t.isArr = true ∨ mx.isArr = true ∨
    c.isArray = true ∨ d.isArray = true) (ht : VSim 0 qt t) (hm : VSim 0 qm mx)
    (hf : initialPressureSearch ct collect reg (a.elem 0) (b.elem 0) qt species mech qm (c.elem 0) (d.elem 0) po pm useDlf tol
      maxIter state = .ok f) :
    initialPressureSearchV ct collect reg a b t species mech mx c d po pm useDlf tol maxIter state =
      .error (if t.isArr = true then notOneNumber else .ambiguousTruth) := by
  unfold initialPressureSearch maxInitialPressure at hf
  split at hf
  · cases hf
  rename_i hst
  obtain ⟨s, hs, hf⟩ := bind_eq_ok.mp hf
  obtain ⟨l, hl, hf⟩ := bind_eq_ok.mp hf
  unfold gasShock at hs
  obtain ⟨s', hs', hs⟩ := bind_eq_ok.mp hs
  cases hs
  unfold initialPressureSearchV gasShockV
  rw [if_neg hst]
  dsimp only
  have e1 := shockState_zero (ct := ct) (collect := collect) (reg := reg) (species := species) (mech := mech) ht
    (vsim_one (n := n) (i := 0) ⟨1, PUnit.atm, reg.id⟩)
  rw [hs'] at e1
  by_cases hta : t.isArr = true
  · rcases e1 with ⟨_, e1⟩ | ⟨_, e1, _⟩
    · rw [e1, if_pos hta]; rfl
    · exact absurd e1 (shockState_never hn (.inl hta))
  rw [if_neg hta]
  rcases e1 with ⟨_, e1⟩ | ⟨_, e1, rfl⟩
  · exfalso
    cases t with
    | arr x => exact hta rfl
    | one x =>
      have : x = qt := by simpa [VSim, VQ.get] using ht
      subst this
      rw [shockState_scalar, hs'] at e1
      cases e1
  rw [e1]
  simp only [ok_bind]
  have e2 := loadFactor_zero a b (.scalar (.quantity s'.cjSpeed)) c d po pm
  rcases ok_of e2 hl with ⟨_, e2⟩ | ⟨_, e2, rfl⟩
  · rw [e2]; rfl
  rw [e2, ok_bind]
  have hm' : mx.isArr = true := by
    have nl := fun h => loadFactor_never (x := l) (po := po) (pm := pm) (a := a) (b := b) (c := c) (d := d)
      (v := .scalar (.quantity s'.cjSpeed)) hn h e2
    rcases h with h | h | h | h | h | h
    · exact absurd (.inl h) nl
    · exact absurd (.inr (.inl h)) nl
    · exact absurd h hta
    · exact h
    · exact absurd (.inr (.inr (.inr (.inl h)))) nl
    · exact absurd (.inr (.inr (.inr (.inr h)))) nl
  cases mx with
  | one q => simp [VQ.isArr] at hm'
  | arr x =>
    simp only [VQ.mag, VN.op, ok_bind]
    rw [cond_arr hn (.inl rfl)]
    rfl

theorem search_stop {shock : Quantity → Py Shock} {dlfOf : Quantity → Py ℝ} {m t : ℝ} {k j : ℕ} {p : Quantity} {s : Shock}
    {l e : ℝ} {ev : List Quantity} (h : ¬ t < |e|) :
    search shock dlfOf useDlf state m t k p s l e j ev = .ok ⟨p, l, e, j, ev⟩ := by
  cases k with
  | zero => rfl
  | succ k => rw [search, if_neg h]

theorem initial_scalar {a b c d : QIn} :
    initialPressureSearchV (n := n) ct collect reg (.scalar a) (.scalar b) (.one qt) species mech (.one qm) (.scalar c) (.scalar d)
      po pm useDlf tol maxIter state =
    initialPressureSearch ct collect reg a b qt species mech qm c d po pm useDlf tol maxIter state := by
  unfold initialPressureSearchV initialPressureSearch maxInitialPressure gasShockV gasShock
  split
  · rfl
  simp only [shockState_scalar, loadFactor_scalar, VQ.mag, VN.op, bind_assoc, ok_bind]
  refine congrArg _ (funext fun s => congrArg _ (funext fun l => ?_))
  by_cases h0 : qm.mag = 0
  · rw [if_pos h0, if_pos h0]; rfl
  · rw [if_neg h0, if_neg h0]
    simp only [ok_bind, VN.cond]
    split
    · rfl
    · rename_i h
      rw [search_stop (by simpa using h)]

end VectorRunUp

open Tube SD in
/-- C132: the reflected shock state and the initial pressure search refuse arrays of more than one element: no result is ever
returned, and where the call on the first elements returns, the refusal is the failed conversion to one number for an array of
temperatures or pressures, and the ambiguous truth value of the first test otherwise (diameters, allowed pressure, modulus, density). -/
theorem C132_initial_pressure_refused {collect : Collect} {a b c d : AIn n} {t p mx : VQ n} {po pm tol : ℝ} {useDlf : Bool}
    {maxIter : ℤ} {state : String} (hn : n ≠ 0) :
    (t.isArr = true ∨ p.isArr = true → (∀ s, reflectedShockStateV ct collect reg t p species mech ≠ .ok s) ∧
      ∀ qt qp s, t.get 0 = some qt → p.get 0 = some qp → reflectedShockState ct collect reg qt qp species mech = .ok s →
        reflectedShockStateV ct collect reg t p species mech = .error notOneNumber) ∧
    (a.isArray = true ∨ b.isArray = true ∨ t.isArr = true ∨ mx.isArr = true ∨ c.isArray = true ∨ d.isArray = true →
      (∀ f, initialPressureSearchV ct collect reg a b t species mech mx c d po pm useDlf tol maxIter state ≠ .ok f) ∧
      ∀ qt qm f, t.get 0 = some qt → mx.get 0 = some qm →
        initialPressureSearch ct collect reg (a.elem 0) (b.elem 0) qt species mech qm (c.elem 0) (d.elem 0) po pm useDlf tol
          maxIter state = .ok f →
        initialPressureSearchV ct collect reg a b t species mech mx c d po pm useDlf tol maxIter state =
          .error (if t.isArr = true then notOneNumber else .ambiguousTruth)) :=
  ⟨fun h => ⟨fun _ => shockState_never hn h, fun _ _ _ ht hp hs => refusedF (shockState_zero ht hp)
      (fun _ => shockState_never hn h) hs⟩,
    fun h => ⟨fun _ => initial_never hn h, fun _ _ _ ht hm => initial_refused hn h ht hm⟩⟩

open Tube SD in
/-- C132: with scalar arguments the array functions are the scalar ones. -/
theorem C132_initial_pressure_scalars {collect : Collect} {a b c d : QIn} {qt qp qm : Quantity} {po pm tol : ℝ} {useDlf : Bool}
    {maxIter : ℤ} {state : String} :
    reflectedShockStateV (n := n) ct collect reg (.one qt) (.one qp) species mech =
      reflectedShockState ct collect reg qt qp species mech ∧
    initialPressureSearchV (n := n) ct collect reg (.scalar a) (.scalar b) (.one qt) species mech (.one qm) (.scalar c) (.scalar d)
      po pm useDlf tol maxIter state =
    initialPressureSearch ct collect reg a b qt species mech qm c d po pm useDlf tol maxIter state :=
  ⟨shockState_scalar, initial_scalar⟩

/-! ### The hypotheses are met -/

/-- The toy gas answers for every tube diameter. -/
theorem exRunUp (reg : Registry) {br d : ℝ} (d0 : 0 < d) (h0 : 0 < br) (h1 : br ≤ 0.75) :
    ∃ q, runUp toyGas reg (.num br) (.quantity ⟨d, PUnit.meter, 7⟩) (.quantity ⟨300, PUnit.kelvin, 7⟩)
      (.quantity ⟨1, PUnit.bar, 7⟩) () "gri30.cti" "" = .ok q ∧ q.unit = PUnit.meter ∧
      HasVal q Dim.length (xBlend 2 5 (Real.sqrt 1500) (0.00002 / (100000 / 300)) d br) reg.id :=
  runUp_eval (D := d) (T := 300) (P := 100000) ⟨⟨rfl, by norm_num [PUnit.meter, PUnit.base]⟩, rfl⟩ rfl
    ⟨rfl, by norm_num [PUnit.kelvin, PUnit.base]⟩ ⟨rfl, by norm_num [PUnit.bar]⟩ (toyGas_answers reg) d0 (by norm_num)
    (by norm_num) (by norm_num) (Real.sqrt_pos.mpr (by norm_num)) (by norm_num) (by norm_num) (by norm_num) h0 h1

theorem exDiameters_elem (i : Fin 2) : exDiameters.elem i = .quantity ⟨![0.1, 0.2] i, PUnit.meter, 7⟩ := rfl

/-- Two tubes, smooth and rough. -/
example (reg : Registry) {br : ℝ} (hb : br = 0.05 ∨ br = 0.5) :
    ∃ R : VQ 1, runUpV toyGas reg (.num br) exDiameters (.scalar (.quantity ⟨300, PUnit.kelvin, 7⟩))
      (.scalar (.quantity ⟨1, PUnit.bar, 7⟩)) () "gri30.cti" "" = .ok R ∧
    ∀ i, ∃ q, runUp toyGas reg (.num br) (exDiameters.elem i) (.quantity ⟨300, PUnit.kelvin, 7⟩)
      (.quantity ⟨1, PUnit.bar, 7⟩) () "gri30.cti" "" = .ok q ∧ R.get i = some q := by
  have h : ∀ i, ∃ q, runUp toyGas reg (.num br) (exDiameters.elem i) (.quantity ⟨300, PUnit.kelvin, 7⟩)
      (.quantity ⟨1, PUnit.bar, 7⟩) () "gri30.cti" "" = .ok q := fun i => by
    obtain ⟨q, hq, -⟩ := exRunUp reg (br := br) (d := ![0.1, 0.2] i) (by fin_cases i <;> simp <;> norm_num)
      (by rcases hb with rfl | rfl <;> norm_num) (by rcases hb with rfl | rfl <;> norm_num)
    exact ⟨q, hq⟩
  choose q hq using h
  obtain ⟨R, hR, h⟩ := C132_run_up_elementwise (by rcases hb with rfl | rfl <;> norm_num) hq
  exact ⟨R, hR, fun i => ⟨q i, hq i, h i⟩⟩

/-- The same two tubes at an intermediate blockage ratio. -/
example (reg : Registry) : runUpV toyGas reg (.num 0.2) exDiameters (.scalar (.quantity ⟨300, PUnit.kelvin, 7⟩))
      (.scalar (.quantity ⟨1, PUnit.bar, 7⟩)) () "gri30.cti" "" = .error tooDeep := by
  obtain ⟨q, hq, -⟩ := exRunUp reg (br := 0.2) (d := 0.1) (by norm_num) (by norm_num) (by norm_num)
  exact (C132_run_up_between_refused (D := exDiameters) (T := .scalar (.quantity ⟨300, PUnit.kelvin, 7⟩))
    (P := .scalar (.quantity ⟨1, PUnit.bar, 7⟩)) rfl (by norm_num) (by norm_num)).2 q hq

/-- A negative second diameter is not noticed: the answer for it is a negative distance. -/
example (reg : Registry) : ∃ (R : VQ 1) (x : ℝ),
    runUpV toyGas reg (.num 0.5) (.quantity ![0.1, -0.2] PUnit.meter 7)
      (.scalar (.quantity ⟨300, PUnit.kelvin, 7⟩)) (.scalar (.quantity ⟨1, PUnit.bar, 7⟩)) () "gri30.cti" "" = .ok R ∧
    R.get 1 = some ⟨x, PUnit.meter, reg.id⟩ ∧ x < 0 := by
  obtain ⟨q, hq, hu, hv⟩ := exRunUp reg (br := 0.5) (d := 0.1) (by norm_num) (by norm_num) (by norm_num)
  obtain ⟨R, hR, h⟩ := C132_run_up_proportional (n := 1) (m := ![0.1, -0.2]) (by norm_num) hq
  have p : 0 < q.mag := by
    have e := hv.phys
    rw [xBlend, if_pos (by norm_num)] at e
    have := x44_pos (S := 2) (sigma := 5) (c := Real.sqrt 1500) (D := 0.1) (br := 0.5) (by norm_num)
      (Real.sqrt_pos.mpr (by norm_num)) (by norm_num) (by norm_num) (by norm_num) (by norm_num)
    rw [← e] at this
    simpa [Quantity.phys, hu, PUnit.meter, PUnit.base] using this
  refine ⟨R, q.mag / 0.1 * (-0.2), hR, ?_, ?_⟩
  · rw [h 1 (by norm_num)]
    simp [hu, hv.reg]
  · have := div_pos p (show (0 : ℝ) < 0.1 by norm_num)
    nlinarith

/-- Two temperatures are refused. -/
example (reg : Registry) : runUpV (n := 1) toyGas reg (.num 0.5) (.scalar (.quantity ⟨0.1, PUnit.meter, 7⟩))
    (.quantity ![300, 310] PUnit.kelvin 7) (.scalar (.quantity ⟨1, PUnit.bar, 7⟩)) () "gri30.cti" "" = .error notOneNumber := by
  obtain ⟨q, hq, -⟩ := exRunUp reg (br := 0.5) (d := 0.1) (by norm_num) (by norm_num) (by norm_num)
  exact (C132_gas_arrays_refused (by norm_num) (.inl rfl)).2.2.2 q (.inr (.inr rfl)) hq

/-- Two flange temperatures are refused. -/
example (reg : Registry) : getMaxPressureV (n := 1) reg "900" (.quantity ![400, 410] PUnit.degC 3) (.str "304") =
    .error .ambiguousTruth := by
  have hc : IsCurve "304" "900" (curveOf 4 Data.group21Rows) :=
    ⟨("304", "2.1", 200, 78, 28), by decide, rfl, _, List.mem_cons_self, rfl, 4, rfl, rfl⟩
  have ho : On (curveOf 4 Data.group21Rows) 400 85.3 := by
    refine ⟨curveOf 4 (Data.group21Rows.take 11), (400, 85.3), (425, 84), curveOf 4 (Data.group21Rows.drop 13),
      ?_, by norm_num, by norm_num, by norm_num⟩
    norm_num [curveOf, Data.group21Rows, cellBar]
  obtain ⟨q, hq, -⟩ := C45_interpolates (u := reg) (x := .quantity ⟨400, PUnit.degC, 3⟩) hc
    ⟨rfl, by norm_num [PUnit.degC]⟩ ho
  exact ((C132_flange_refused (reg := reg) (Y := .scalar .other) (by norm_num)).2.1 rfl).2 q hq

open Tube SD in
/-- Two outer diameters are refused, and so are two temperatures. -/
example (reg : Registry) :
    initialPressureSearchV (n := 1) (tvGas exP exH) serial reg (.scalar (.quantity ⟨4, PUnit.inch, 0⟩))
      (.quantity ![4.5, 5] PUnit.inch 0) (.one ⟨20, PUnit.degC, 0⟩) () mechanism (.one ⟨65800000 / 9, PUnit.pascal, 0⟩)
      (.scalar (.quantity ⟨200, PUnit.gigapascal, 0⟩)) (.scalar (.quantity ⟨7.8, PUnit.gramPerCC, 0⟩)) 0.28 0.1 true 0.0001 500
      "reflected" = .error .ambiguousTruth ∧
    initialPressureSearchV (n := 1) (tvGas exP exH) serial reg (.scalar (.quantity ⟨4, PUnit.inch, 0⟩))
      (.scalar (.quantity ⟨4.5, PUnit.inch, 0⟩)) (.arr ⟨![some 20, some 30], PUnit.degC, 0⟩) () mechanism
      (.one ⟨65800000 / 9, PUnit.pascal, 0⟩)
      (.scalar (.quantity ⟨200, PUnit.gigapascal, 0⟩)) (.scalar (.quantity ⟨7.8, PUnit.gramPerCC, 0⟩)) 0.28 0.1 true 0.0001 500
      "reflected" = .error notOneNumber := by
  obtain ⟨f, hf, -⟩ := ex_search (reg := reg)
  exact ⟨(C132_initial_pressure_refused (p := .one ⟨1, PUnit.atm, 0⟩) (by norm_num)).2 (.inr (.inl rfl)) |>.2 _ _ _ rfl rfl hf,
    (C132_initial_pressure_refused (p := .one ⟨1, PUnit.atm, 0⟩) (by norm_num)).2 (.inr (.inr (.inl rfl))) |>.2 _ _ _ rfl rfl hf⟩

end Pypbomb
