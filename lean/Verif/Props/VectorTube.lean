/-
C110: array arguments of the blockage, tube and thread functions are handled element by element, or refused where a condition
depends on them.
-/
import Verif.Lemmas.VectorTube
import Verif.Props.DDT
import Verif.Props.Tube
import Verif.Props.Witness

namespace Pypbomb
open Quantity

variable {n : ℕ} {reg : Registry}

/-- Does the argument hold an array? -/
def AIn.isArray : AIn n → Bool
  | .scalar _ => false
  | _ => true

/-- The scalar argument of `calculate_max_pressure` for the `i`-th element alone, and the array quantity with all elements. -/
def quantityArray (m : Fin (n + 1) → ℝ) (u : PUnit) (r : ℕ) : VQ n := .arr ⟨fun i => some (m i), u, r⟩

namespace VectorTube

theorem blockageDiameter_zero (x : AIn n) (br : NumIn) :
    Rel (VSim 0) (DDT.blockageDiameter reg (x.elem 0) br) (DDT.blockageDiameterV reg x br) := by
  unfold DDT.blockageDiameter DDT.blockageDiameterV
  rcases br with y | (_ | y) | _ <;> dsimp only [ok_bind, err_bind] <;> try exact .inr rfl
  all_goals
    split
    · exact .inr rfl
    · exact (relV_parse x reg 0).bind fun _ _ h => (relV_check h _ _).bind fun _ _ _ => (h.divNum 2).bind fun _ _ h =>
        h.scale _

theorem blockageDiameter_elem (x : AIn n) (br : NumIn) (i : Fin (n + 1)) :
    Rel2 (VSim i) (DDT.blockageDiameter reg (x.elem i) br) (DDT.blockageDiameterV reg x br) := by
  unfold DDT.blockageDiameter DDT.blockageDiameterV
  have no : ∀ e : PyErr, Rel2 (VSim i) (.error e) (.error e : Py (VQ n)) := by
    intro e a b h; cases h
  rcases br with y | (_ | y) | _ <;> dsimp only [ok_bind, err_bind] <;> try exact no _
  all_goals
    split
    · exact no _
    · exact (relV_parse x reg i).weaken.bind fun _ _ h => Rel2.any.bind fun _ _ _ => (h.divNum 2).weaken.bind fun _ _ h =>
        (h.scale _).weaken

theorem maxStress_elem (x : AIn n) (material : String) (welded : Bool) (i : Fin (n + 1)) :
    Rel (VSim i) (Tube.maxStress reg (x.elem i) material welded) (Tube.maxStressV reg x material welded) := by
  unfold Tube.maxStress Tube.maxStressV
  refine (relV_parse x reg i).bind fun _ _ h => (Rel.refl _).bind fun pts pts' hp => ?_
  subst hp
  by_cases hI : Inc pts
  · rw [if_pos hI, if_pos hI]
    refine (h.convert _).bind fun q v h => ?_
    cases v with
    | one q' =>
      have : q' = q := by simpa [VSim, VQ.get] using h
      subst this
      exact Rel.ok rfl
    | arr a => exact Rel.ok (vsim_arr.mpr ⟨by simp [(vsim_arr.mp h).mag], rfl, rfl⟩)
  · rw [if_neg hI, if_neg hI]
    exact .inr rfl

theorem maxPressure_elem {i : Fin (n + 1)} {p q s : Quantity} {a b c : VQ n} (sf : ℝ) (h1 : VSim i p a) (h2 : VSim i q b)
    (h3 : VSim i s c) : Rel (VSim i) (Tube.maxPressure p q s sf) (Tube.maxPressureV a b c sf) := by
  unfold Tube.maxPressure Tube.maxPressureV
  exact (h2.add h1).bind fun _ _ h4 => (h4.divNum 2).bind fun _ _ h5 => (h2.sub h1).bind fun _ _ h6 =>
    (h6.divNum 2).bind fun _ _ h7 => (h7.scale 2).bind fun _ _ h8 => (h3.mul h8).bind fun _ _ h9 =>
    (h5.scale sf).bind fun _ _ h10 => h9.div h10

theorem checked_zero (x : AIn n) (kind : String) (pos : Bool) :
    Rel (VSim 0) (Tube.checked (x.elem 0) kind pos) (checkedV x kind pos) := by
  cases x with
  | quantity m u r =>
    exact Rel.bind (R := fun _ _ => True) (rel_check (a := ⟨fun i => some (m i), u, r⟩) ⟨rfl, rfl, rfl⟩ kind pos)
      fun _ _ _ => Rel.ok (vsim_arr.mpr ⟨rfl, rfl, rfl⟩)
  | pair m u => exact .inr rfl
  | scalar x =>
    cases x with
    | quantity q => exact (Rel.refl (checkQ q kind pos)).bind fun _ _ _ => Rel.ok (vsim_one q)
    | pair m u => exact .inr rfl
    | other => exact .inr rfl

theorem checked_arr {x : AIn n} {kind : String} {pos : Bool} {v : VQ n} (h : checkedV x kind pos = .ok v) :
    v.isArr = x.isArray := by
  cases x with
  | quantity m u r =>
    simp only [checkedV, bind_eq_ok] at h
    obtain ⟨_, _, h⟩ := h
    cases h; rfl
  | pair m u => cases h
  | scalar x =>
    cases x with
    | quantity q =>
      simp only [checkedV, bind_eq_ok] at h
      obtain ⟨_, _, h⟩ := h
      cases h; rfl
    | pair m u => cases h
    | other => cases h

theorem loadFactor_zero (a b v c d : AIn n) (po pm : ℝ) :
    RelT n Eq (Tube.dynamicLoadFactor (a.elem 0) (b.elem 0) (v.elem 0) (c.elem 0) (d.elem 0) po pm)
      (Tube.dynamicLoadFactorV a b v c d po pm) := by
  unfold Tube.dynamicLoadFactor Tube.dynamicLoadFactorV
  refine (checked_zero a _ _).toT.bind fun _ _ h1 => (checked_zero b _ _).toT.bind fun _ _ h2 =>
    (checked_zero v _ _).toT.bind fun _ _ h3 => (checked_zero c _ _).toT.bind fun _ _ h4 =>
    (checked_zero d _ _).toT.bind fun _ _ h5 => RelT.ite (fun _ => .inr (.inr rfl)) fun _ => ?_
  unfold Tube.critVelocity Tube.critVelocityV
  have hcrit := (h2.add h1).bind fun _ _ k1 => (k1.divNum 4).bind fun _ _ k2 => (h2.sub h1).bind fun _ _ k3 =>
    (k3.divNum 2).bind fun _ _ k4 => (h4.pow 2).bind fun _ _ k5 => (k4.pow 2).bind fun _ _ k6 => (k5.mul k6).bind fun _ _ k7 =>
    (h5.pow 2).bind fun _ _ k8 => (k8.scale 3).bind fun _ _ k9 => (k2.pow 2).bind fun _ _ k10 =>
    (k9.mul k10).bind fun _ _ k11 => (k11.scale (1 - po ^ 2)).bind fun _ _ k12 => (k7.div k12).bind fun _ _ k13 =>
    k13.pow (1 / 4)
  refine hcrit.toT.bind fun _ _ k => (k.scale _).toT.bind fun _ _ k1 => (k1.convert _).toT.bind fun _ _ k2 =>
    (k.scale _).toT.bind fun _ _ k3 => (k3.convert _).toT.bind fun _ _ k4 => (h3.convert _).toT.bind fun x v k5 => ?_
  rename_i hi hiV lo' loV' lo loV
  have e1 := rel_cond (R := fun x y => decide (x < y)) k5.mag k4.mag
  have e2 := rel_cond (R := fun x y => decide (y < x)) k5.mag k2.mag
  rcases e1 with ⟨hn, e1⟩ | ⟨_, e1, rfl⟩
  · rw [e1]
    exact .inl ⟨hn, rfl⟩
  rw [e1, ok_bind]
  by_cases hx : x.mag < lo.mag
  · simp only [hx, if_true, decide_true]
    exact .inr (Rel.refl _)
  simp only [hx, if_false, decide_false, Bool.false_eq_true]
  rcases e2 with ⟨hn, e2⟩ | ⟨_, e2, rfl⟩
  · rw [e2]
    exact .inl ⟨hn, rfl⟩
  rw [e2, ok_bind]
  by_cases hy : hi.mag < x.mag
  · simp only [hy, if_true, decide_true]
    exact .inr (Rel.refl _)
  · simp only [hy, if_false, decide_false, Bool.false_eq_true]
    exact .inr (Rel.refl _)

theorem mag_isArr (v : VQ n) : v.mag.isArr = v.isArr := by
  cases v <;> rfl

theorem loadFactor_never {a b v c d : AIn n} {po pm x : ℝ} (hn : n ≠ 0)
    (h : a.isArray = true ∨ b.isArray = true ∨ v.isArray = true ∨ c.isArray = true ∨ d.isArray = true) :
    Tube.dynamicLoadFactorV a b v c d po pm ≠ .ok x := by
  intro ho
  simp only [Tube.dynamicLoadFactorV, bind_eq_ok] at ho
  obtain ⟨a', ha, b', hb, v', hv, c', hc, d', hd, ho⟩ := ho
  split at ho
  · cases ho
  simp only [bind_eq_ok, Tube.critVelocityV] at ho
  obtain ⟨q, ⟨k1, h1, k2, h2, k3, h3, k4, h4, k5, h5, k6, h6, k7, h7, k8, h8, k9, h9, k10, h10, k11, h11, k12, h12, k13, h13,
    h14⟩, hi', g1, hi, g2, lo', g3, lo, g4, w, g5, below, g6, _⟩ := ho
  rw [cond_arr hn] at g6
  · cases g6
  rw [mag_isArr, mag_isArr]
  have f1 := isArr_lift₂ h1
  have f2 := isArr_lift₁ h2
  have f3 := isArr_lift₂ h3
  have f4 := isArr_lift₁ h4
  have f5 := isArr_lift₁ h5
  have f6 := isArr_lift₁ h6
  have f7 := isArr_lift₂ h7
  have f8 := isArr_lift₁ h8
  have f9 := isArr_lift₁ h9
  have f10 := isArr_lift₁ h10
  have f11 := isArr_lift₂ h11
  have f12 := isArr_lift₁ h12
  have f13 := isArr_lift₂ h13
  have f14 := isArr_lift₁ h14
  have f15 := isArr_lift₁ g3
  have f16 := isArr_lift₁ g4
  have f17 := isArr_lift₁ g5
  rw [f17, f16, f15, f14, f13, f12, f11, f10, f9, f8, f7, f6, f5, f4, f3, f2, f1, checked_arr ha, checked_arr hb, checked_arr hv,
    checked_arr hc, checked_arr hd]
  simp only [Bool.or_eq_true]
  tauto

theorem parse_arr {x : AIn n} {v : VQ n} (h : parseV x reg = .ok v) : v.isArr = x.isArray := by
  cases x with
  | scalar x =>
    unfold parseV at h
    cases hp : parseQ x reg <;> simp [hp, Except.map] at h
    subst h; rfl
  | quantity m u r =>
    unfold parseV at h
    cases hp : parseA (.quantity m u r) reg <;> simp [hp, Except.map] at h
    subst h; rfl
  | pair m u =>
    unfold parseV at h
    cases hp : parseA (.pair m u) reg <;> simp [hp, Except.map] at h
    subst h; rfl

theorem toBase_isArr (v : VQ n) : v.toBase.isArr = v.isArr := by
  cases v <;> rfl

theorem blockageRatio_never {a b : AIn n} {x : VN n} (hn : n ≠ 0) (h : a.isArray = true ∨ b.isArray = true) :
    DDT.blockageRatioV reg a b ≠ .ok x := by
  intro ho
  simp only [DDT.blockageRatioV, bind_eq_ok] at ho
  obtain ⟨a', ha, b', hb, _, _, _, _, z, hz, ho⟩ := ho
  split at ho
  · cases ho
  simp only [bind_eq_ok] at ho
  obtain ⟨big, hbig, _⟩ := ho
  refine ge_arr hn ?_ hbig
  rw [toBase_isArr, toBase_isArr, parse_arr ha, parse_arr hb]
  exact h.symm

theorem blockageRatio_zero (a b : AIn n) :
    RelT n (fun x v => v.get 0 = some x) (DDT.blockageRatio reg (a.elem 0) (b.elem 0)) (DDT.blockageRatioV reg a b) := by
  unfold DDT.blockageRatio DDT.blockageRatioV
  refine (relV_parse a reg 0).toT.bind fun qa va ha => (relV_parse b reg 0).toT.bind fun qb vb hb =>
    (relV_check ha.toBase _ _).toT.bind fun _ _ _ => (relV_check hb.toBase _ _).toT.bind fun _ _ _ => ?_
  have e1 := rel_cond (R := fun x y => decide (x = y)) ha.toBase.mag (w := .one 0) (y := 0) rfl
  rcases e1 with ⟨hn, e1⟩ | ⟨_, e1, rfl⟩
  · rw [e1]
    exact .inl ⟨hn, rfl⟩
  rw [e1, ok_bind]
  by_cases h0 : qa.toBase.mag = 0
  · simp only [h0, if_true, decide_true]
    exact .inr (.inr rfl)
  simp only [h0, if_false, decide_false, Bool.false_eq_true]
  refine (rel_ge hb.toBase ha.toBase).bind fun x y hxy => ?_
  subst hxy
  refine RelT.ite (fun _ => .inr (.inr rfl)) fun _ => .inr ?_
  have m1 := ha.toBase.mag
  have m2 := hb.toBase.mag
  generalize vb.toBase.mag = w at *
  generalize va.toBase.mag = v at *
  cases v <;> cases w <;> simp only [VN.get, Option.some.injEq] at m1 m2 <;>
    simp [VN.op, VN.get, m1, m2, h0] <;> exact ⟨_, rfl, by simp [m1, m2, h0]⟩

/-- Comparisons at any index: if both give a condition, it is the same. -/
theorem rel2_lt {i : Fin (n + 1)} {q p : Quantity} {a b : VQ n} (h : VSim i q a) (h' : VSim i p b) :
    Rel2 Eq (q.lt p) (a.lt b) := by
  by_cases hn : n = 0
  · subst hn
    have : i = 0 := Fin.fin_one_eq_zero i
    subst this
    exact (rel_lt h h').weaken
  intro x y hx hy
  by_cases harr : a.isArr = true ∨ b.isArr = true
  · exact absurd hy (lt_arr hn harr)
  cases a with
  | arr a => exact absurd (.inl rfl) harr
  | one q' =>
    cases b with
    | arr b => exact absurd (.inr rfl) harr
    | one p' =>
      have : q' = q := by simpa [VSim, VQ.get] using h
      subst this
      have : p' = p := by simpa [VSim, VQ.get] using h'
      subst this
      exact Except.ok.inj (hx.symm.trans hy)

theorem rereg_sim {i : Fin (n + 1)} {q : Quantity} {v : VQ n} (h : VSim i q v) : VSim i (Bolt.rereg reg q) (v.rereg reg) := by
  cases v with
  | one q' =>
    have : q' = q := by simpa [VSim, VQ.get] using h
    subst this
    rfl
  | arr a => exact vsim_arr.mpr ⟨(vsim_arr.mp h).mag, (vsim_arr.mp h).unit, rfl⟩

theorem shear_elem {i : Fin (n + 1)} {tpi len dia big small : Quantity} {v : VQ n} (h : VSim i len v) :
    Rel (VSim i) (Bolt.shearArea tpi len dia big small) (Bolt.shearAreaV tpi v dia big small) := by
  unfold Bolt.shearArea Bolt.shearAreaV
  refine (Rel.refl _).bind fun x _ e => ?_
  subst e
  refine ((vsim_one x).mul h).bind fun _ _ h1 => (h1.mul (vsim_one dia)).bind fun _ _ h2 =>
    (Rel.refl _).bind fun x _ e => ?_
  subst e
  refine (Rel.refl _).bind fun x _ e => ?_
  subst e
  refine (Rel.refl _).bind fun y _ e => ?_
  subst e
  refine (Rel.refl _).bind fun y _ e => ?_
  subst e
  refine (Rel.refl _).bind fun z _ e => ?_
  subst e
  exact h2.mul (vsim_one z)

theorem shear_isArr {tpi dia big small : Quantity} {v o : VQ n} (h : Bolt.shearAreaV tpi v dia big small = .ok o) :
    o.isArr = v.isArr := by
  simp only [Bolt.shearAreaV, bind_eq_ok] at h
  obtain ⟨a, _, b, h1, c, h2, _, _, _, _, _, _, _, _, _, _, h3⟩ := h
  rw [isArr_lift₂ h3, isArr_lift₂ h2, isArr_lift₂ h1]
  simp [VQ.isArr]

theorem tensile_eq (sb bd es tpi : Quantity) :
    Bolt.tensileArea reg sb bd es tpi =
      (sb.lt ⟨100000, PUnit.psi, reg.id⟩ >>= fun w => Bolt.tensileOf w bd es tpi) := rfl

/-- The areas of an array call at element `i`. -/
structure ASim (i : Fin (n + 1)) (A : Bolt.Areas) (V : Bolt.AreasV n) : Prop where
  plate : VSim i A.plate V.plate
  screw : VSim i A.screw V.screw
  minEngagement : VSim i A.minEngagement V.minEngagement
  warned : V.warned = A.warned

theorem checkArg_zero (x : AIn n) (kind : String) :
    Rel (VSim 0) (Bolt.checkArg (x.elem 0) kind) (checkedV x kind true) := checked_zero x kind true

theorem checkArg_elem (x : AIn n) (kind : String) (i : Fin (n + 1)) :
    Rel2 (VSim i) (Bolt.checkArg (x.elem i) kind) (checkedV x kind true) := by
  intro q v hq hv
  cases x with
  | quantity m u r =>
    simp only [checkedV, bind_eq_ok] at hv
    obtain ⟨_, _, hv⟩ := hv
    simp only [Bolt.checkArg, AIn.elem, bind_eq_ok] at hq
    obtain ⟨_, _, hq⟩ := hq
    cases hv
    cases hq
    rfl
  | pair m u => cases hv
  | scalar x =>
    cases x with
    | quantity q =>
      simp only [checkedV, bind_eq_ok] at hv
      obtain ⟨_, _, hv⟩ := hv
      simp only [Bolt.checkArg, AIn.elem, bind_eq_ok] at hq
      obtain ⟨_, _, hq⟩ := hq
      cases hv
      cases hq
      rfl
    | pair m u => cases hv
    | other => cases hv

theorem minEngagement_elem {i : Fin (n + 1)} {tensile kn es tpi j : Quantity} {v : VQ n} (h : VSim i j v) :
    Rel (VSim i) (Bolt.minEngagement tensile kn es tpi j) (do
      let num ← Quantity.scale 2 tensile
      let kp ← Quantity.scale Real.pi kn
      let t ← Quantity.scale 0.57735 tpi
      let df ← es.sub kn
      let t ← t.mul df
      let b ← Quantity.addNum (1 / 2) t
      let den ← kp.mul b
      let q ← num.div den
      VQ.mul (.one q) v) := by
  unfold Bolt.minEngagement
  refine (Rel.refl _).bind fun x _ e => ?_
  subst e
  refine (Rel.refl _).bind fun x _ e => ?_
  subst e
  refine (Rel.refl _).bind fun x _ e => ?_
  subst e
  refine (Rel.refl _).bind fun x _ e => ?_
  subst e
  refine (Rel.refl _).bind fun x _ e => ?_
  subst e
  refine (Rel.refl _).bind fun x _ e => ?_
  subst e
  refine (Rel.refl _).bind fun x _ e => ?_
  subst e
  refine (Rel.refl _).bind fun x _ e => ?_
  subst e
  exact (vsim_one x).mul h

/-- The end of `calculate_stress_areas`, after the two conditions. -/
theorem areas_tail {i : Fin (n + 1)} {tpi tensile shear sb sp len kn es ds en : Quantity} {vs vb vp vl : VQ n} {w : Bool}
    (hs : VSim i shear vs) (hb : VSim i sb vb) (hp : VSim i sp vp) (hl : VSim i len vl) :
    Rel (ASim i)
      (do
        let screw := if w then shear else tensile
        let plate ← Bolt.shearArea tpi len ds ds en
        let jn ← shear.mul sb
        let jd ← plate.mul sp
        let j ← jn.div jd
        let m ← Bolt.minEngagement tensile kn es tpi j
        .ok ⟨plate, screw, m, w⟩)
      (do
        let screw := if w then vs else .one tensile
        let plate ← Bolt.shearAreaV tpi vl ds ds en
        let jn ← vs.mul vb
        let jd ← plate.mul vp
        let j ← jn.div jd
        let num ← Quantity.scale 2 tensile
        let kp ← Quantity.scale Real.pi kn
        let t ← Quantity.scale 0.57735 tpi
        let df ← es.sub kn
        let t ← t.mul df
        let b ← Quantity.addNum (1 / 2) t
        let den ← kp.mul b
        let q ← num.div den
        let m ← VQ.mul (.one q) j
        .ok ⟨plate, screw, m, w⟩) := by
  refine (shear_elem hl).bind fun pl vpl h1 => (hs.mul hb).bind fun _ _ h2 => (h1.mul hp).bind fun _ _ h3 =>
    (h2.div h3).bind fun j vj h4 => ?_
  have h5 := (minEngagement_elem (tensile := tensile) (kn := kn) (es := es) (tpi := tpi) h4).bind
    (S := ASim i) (f := fun m => .ok ⟨pl, if w then shear else tensile, m, w⟩)
    (g := fun m => .ok ⟨vpl, if w then vs else .one tensile, m, w⟩) fun m vm hm =>
      Rel.ok ⟨h1, by cases w <;> first | exact hs | exact vsim_one _, hm, rfl⟩
  simpa only [bind_assoc] using h5

theorem stressAreas_zero (size cls : String) (B P L : AIn n) :
    RelT n (ASim 0) (Bolt.stressAreas reg size cls (B.elem 0) (P.elem 0) (L.elem 0)) (Bolt.stressAreasV reg size cls B P L) := by
  unfold Bolt.stressAreas Bolt.stressAreasV
  refine (checkArg_zero B _).toT.bind fun sb vb hb => (checkArg_zero P _).toT.bind fun sp vp hp =>
    (checkArg_zero L _).toT.bind fun len vl hl => ?_
  have hb := rereg_sim (reg := reg) hb
  have hp := rereg_sim (reg := reg) hp
  have hl := rereg_sim (reg := reg) hl
  refine (Rel.refl _).toT.bind fun kn _ e => ?_
  subst e
  refine (Rel.refl _).toT.bind fun es _ e => ?_
  subst e
  refine (Rel.refl _).toT.bind fun en _ e => ?_
  subst e
  refine (Rel.refl _).toT.bind fun ds _ e => ?_
  subst e
  cases parseDigits (splitLast '-' size) with
  | none => exact .inr (.inr rfl)
  | some d => ?_
  dsimp only [ok_bind]
  refine (Rel.refl _).toT.bind fun bd _ e => ?_
  subst e
  rw [tensile_eq, bind_assoc]
  refine (rel_lt hb (vsim_one _)).bind fun w _ e => ?_
  subst e
  refine (Rel.refl _).toT.bind fun t _ e => ?_
  subst e
  refine (shear_elem hl).toT.bind fun s vs hs => (rel_lt hs (vsim_one _)).bind fun w _ e => ?_
  subst e
  exact (areas_tail hs hb hp hl).toT

theorem stressAreas_elem (size cls : String) (B P L : AIn n) (i : Fin (n + 1)) :
    Rel2 (ASim i) (Bolt.stressAreas reg size cls (B.elem i) (P.elem i) (L.elem i)) (Bolt.stressAreasV reg size cls B P L) := by
  unfold Bolt.stressAreas Bolt.stressAreasV
  refine (checkArg_elem B _ i).bind fun sb vb hb => (checkArg_elem P _ i).bind fun sp vp hp =>
    (checkArg_elem L _ i).bind fun len vl hl => ?_
  have hb := rereg_sim (reg := reg) hb
  have hp := rereg_sim (reg := reg) hp
  have hl := rereg_sim (reg := reg) hl
  refine (Rel.refl _).weaken.bind fun kn _ e => ?_
  subst e
  refine (Rel.refl _).weaken.bind fun es _ e => ?_
  subst e
  refine (Rel.refl _).weaken.bind fun en _ e => ?_
  subst e
  refine (Rel.refl _).weaken.bind fun ds _ e => ?_
  subst e
  cases parseDigits (splitLast '-' size) with
  | none => intro a b ha; cases ha
  | some d => ?_
  dsimp only [ok_bind]
  refine (Rel.refl _).weaken.bind fun bd _ e => ?_
  subst e
  rw [tensile_eq, bind_assoc]
  refine (rel2_lt hb (vsim_one _)).bind fun w _ e => ?_
  subst e
  refine (Rel.refl _).weaken.bind fun t _ e => ?_
  subst e
  refine (shear_elem hl).weaken.bind fun s vs hs => (rel2_lt hs (vsim_one _)).bind fun w _ e => ?_
  subst e
  exact (areas_tail hs hb hp hl).weaken

theorem checked_scalar (x : QIn) (kind : String) :
    Rel (fun q v => v = VQ.one (n := n) q) (Bolt.checkArg x kind) (checkedV (.scalar x) kind true) := by
  cases x with
  | quantity q => exact (Rel.refl (checkQ q kind true)).bind fun _ _ _ => Rel.ok rfl
  | pair m u => exact .inr rfl
  | other => exact .inr rfl

theorem shear_scalar {tpi len dia big small : Quantity} :
    Rel (fun q v => v = VQ.one (n := n) q) (Bolt.shearArea tpi len dia big small)
      (Bolt.shearAreaV tpi (.one len) dia big small) := by
  have h := shear_elem (n := n) (i := 0) (tpi := tpi) (dia := dia) (big := big) (small := small) (vsim_one len)
  cases hs : Bolt.shearArea tpi len dia big small with
  | error e => rw [hs] at h; exact h
  | ok q =>
    rw [hs] at h
    obtain ⟨v, hv, hq⟩ := h
    refine ⟨v, hv, ?_⟩
    have := shear_isArr hv
    cases v with
    | one q' => simpa [VSim, VQ.get] using hq
    | arr a => simp [VQ.isArr] at this

/-- With scalar bolt strength and engagement no condition depends on an array. -/
theorem stressAreas_plate_zero (size cls : String) (xb : QIn) (P : AIn n) (xL : QIn) :
    Rel (ASim 0) (Bolt.stressAreas reg size cls xb (P.elem 0) xL)
      (Bolt.stressAreasV reg size cls (.scalar xb) P (.scalar xL)) := by
  unfold Bolt.stressAreas Bolt.stressAreasV
  refine (checked_scalar xb _).bind fun sb vb hb => (checkArg_zero P _).bind fun sp vp hp =>
    (checked_scalar xL _).bind fun len vl hl => ?_
  subst hb hl
  have hp := rereg_sim (reg := reg) hp
  refine (Rel.refl _).bind fun kn _ e => ?_
  subst e
  refine (Rel.refl _).bind fun es _ e => ?_
  subst e
  refine (Rel.refl _).bind fun en _ e => ?_
  subst e
  refine (Rel.refl _).bind fun ds _ e => ?_
  subst e
  cases parseDigits (splitLast '-' size) with
  | none => exact .inr rfl
  | some d => ?_
  dsimp only [ok_bind]
  refine (Rel.refl _).bind fun bd _ e => ?_
  subst e
  rw [tensile_eq, bind_assoc]
  refine Rel.bind (Rel.refl (Quantity.lt _ _)) fun w _ e => ?_
  subst e
  refine (Rel.refl _).bind fun t _ e => ?_
  subst e
  refine shear_scalar.bind fun s vs hs => ?_
  subst hs
  refine Rel.bind (Rel.refl (Quantity.lt _ _)) fun w _ e => ?_
  subst e
  exact areas_tail (vsim_one _) (vsim_one _) hp (vsim_one _)

theorem rereg_isArr (v : VQ n) : (v.rereg reg).isArr = v.isArr := by
  cases v <;> rfl

theorem stressAreas_never {size cls : String} {B P L : AIn n} {x : Bolt.AreasV n} (hn : n ≠ 0)
    (h : B.isArray = true ∨ L.isArray = true) : Bolt.stressAreasV reg size cls B P L ≠ .ok x := by
  intro ho
  unfold Bolt.stressAreasV at ho
  cases hd : parseDigits (splitLast '-' size) with
  | none => simp [bind_eq_ok, hd] at ho
  | some d =>
    simp only [hd, ok_bind, bind_eq_ok] at ho
    obtain ⟨sb, hb, sp, hp, len, hl, _, _, _, _, _, _, _, _, _, _, w, hw, _, _, s, hs, w', hw', _⟩ := ho
    rcases h with h | h
    · exact lt_arr hn (.inl (by rw [rereg_isArr, checked_arr hb, h])) hw
    · exact lt_arr hn (.inl (by rw [shear_isArr hs, rereg_isArr, checked_arr hl, h])) hw'

theorem pass_elem {i : Fin (n + 1)} {q : Quantity} {v : VQ n} (h : VSim i q v) : (Bolt.pass v).elem i = .quantity q := by
  cases v with
  | one q' =>
    have : q' = q := by simpa [VSim, VQ.get] using h
    subst this
    rfl
  | arr a =>
    have h := vsim_arr.mp h
    simp [Bolt.pass, AIn.elem, h.mag, h.unit, h.reg]

theorem pass_isArr (v : VQ n) : (Bolt.pass v).isArray = v.isArr := by
  cases v <;> rfl

theorem divNs_elem {i : Fin (n + 1)} {q : Quantity} {v : VQ n} {k : ℝ} {K : VN n} (h : VSim i q v) (hk : K.get i = some k) :
    Rel (VSim i) (q.divNum k) (v.divNs K) := by
  have hb := h.bcast
  cases K with
  | one k' =>
    have : k' = k := by simpa [VN.get] using hk
    subst this
    have key : Rel (VSim i) (q.divNum k') ((v.bcast.divNums fun _ => k').map .arr) :=
      (rel_divNums (fun _ => k') hb).mapR _ fun _ _ h => vsim_arr.mpr h
    cases v with
    | one q' =>
      have : q' = q := by simpa [VSim, VQ.get] using h
      subst this
      exact (Rel.refl _).mapR _ fun _ _ h => by subst h; rfl
    | arr a => exact key
  | arr k' =>
    have key : Rel (VSim i) (q.divNum k) (do
        QArr.noOffset v.bcast
        .ok (.arr ⟨QArr.zip (fun x y => if y = 0 then none else some (x / y)) v.bcast.mag k', v.bcast.unit, v.bcast.reg⟩)) := by
      unfold Quantity.divNum
      refine (rel_noOffset hb).bind fun _ _ _ => ?_
      split
      · exact .inl (.inl rfl)
      · rename_i h0
        refine Rel.ok (vsim_arr.mpr ⟨?_, hb.unit, hb.reg⟩)
        have : k' i = some k := hk
        simp [QArr.zip, hb.mag, this, h0]
    cases v <;> exact key

theorem toNumbers_elem {i : Fin (n + 1)} {q : Quantity} {v : VQ n} (h : VSim i q v) :
    Rel (fun x (w : VN n) => w.get i = some x) q.toNumber v.toNumbers := by
  cases v with
  | one q' =>
    have : q' = q := by simpa [VSim, VQ.get] using h
    subst this
    exact (Rel.refl _).mapR _ fun _ _ h => by subst h; rfl
  | arr a => exact (rel_toNumbers (vsim_arr.mp h)).mapR _ fun _ _ h => h

theorem parse_scalar (x : QIn) :
    Rel (fun q v => v = VQ.one (n := n) q) (parseQ x reg) (parseV (.scalar x) reg) :=
  (Rel.refl _).mapR _ fun _ _ h => by subst h; rfl

/-- The pairs of factors of an array call at element `i`. -/
def FSim (i : Fin (n + 1)) (x : ℝ × ℝ) (v : VN n × VN n) : Prop := v.1.get i = some x.1 ∧ v.2.get i = some x.2

/-- The end of `calculate_safety_factors`, after the stress areas. -/
theorem factors_tail {i : Fin (n + 1)} {f sb sp : Quantity} {vf vb vp : VQ n} {A : Bolt.Areas} {V : Bolt.AreasV n}
    (hf : VSim i f vf) (hb : VSim i sb vb) (hp : VSim i sp vp) (hA : ASim i A V) :
    Rel (FSim i)
      (do
        let screw := Bolt.rereg reg A.screw
        let plate := Bolt.rereg reg A.plate
        let s1 ← f.div screw
        let b ← sb.div s1
        let b ← b.toNumber
        let s2 ← f.div plate
        let pl ← sp.div s2
        let pl ← pl.toNumber
        .ok (b, pl))
      (do
        let screw := V.screw.rereg reg
        let plate := V.plate.rereg reg
        let s1 ← vf.div screw
        let b ← vb.div s1
        let b ← b.toNumbers
        let s2 ← vf.div plate
        let pl ← vp.div s2
        let pl ← pl.toNumbers
        .ok (b, pl)) :=
  (hf.div (rereg_sim hA.screw)).bind fun _ _ h1 => (hb.div h1).bind fun _ _ h2 => (toNumbers_elem h2).bind fun _ _ h3 =>
    (hf.div (rereg_sim hA.plate)).bind fun _ _ h4 => (hp.div h4).bind fun _ _ h5 => (toNumbers_elem h5).bind fun _ _ h6 =>
    Rel.ok ⟨h3, h6⟩

variable {P A B S L : AIn n} {K : VN n} {size cls : String}

theorem safetyFactors_zero {k : ℝ} (hk : K.get 0 = some k) :
    RelT n (FSim 0) (Bolt.safetyFactors reg (P.elem 0) (A.elem 0) k size cls (B.elem 0) (S.elem 0) (L.elem 0))
      (Bolt.safetyFactorsV reg P A K size cls B S L) := by
  unfold Bolt.safetyFactors Bolt.safetyFactorsV
  refine (relV_parse P reg 0).toT.bind fun _ _ h1 => (relV_parse A reg 0).toT.bind fun _ _ h2 =>
    (relV_parse B reg 0).toT.bind fun sb vb h3 => (relV_parse S reg 0).toT.bind fun sp vp h4 =>
    (relV_parse L reg 0).toT.bind fun l vl h5 => (relV_check h1 _ _).toT.bind fun _ _ _ =>
    (relV_check h2 _ _).toT.bind fun _ _ _ => (relV_check h3 _ _).toT.bind fun _ _ _ =>
    (relV_check h4 _ _).toT.bind fun _ _ _ => (relV_check h5 _ _).toT.bind fun _ _ _ =>
    (h1.sub (vsim_one _)).toT.bind fun _ _ k1 => (k1.mul h2).toT.bind fun _ _ k2 =>
    (divNs_elem k2 hk).toT.bind fun _ _ k3 => ?_
  have hs := stressAreas_zero (reg := reg) size cls (Bolt.pass vb) (Bolt.pass vp) (Bolt.pass vl)
  rw [pass_elem h3, pass_elem h4, pass_elem h5] at hs
  exact hs.bind fun _ _ hA => (factors_tail k3 h3 h4 hA).toT

theorem safetyFactors_scalar {xb xL : QIn} {k : ℝ} (hk : K.get 0 = some k) :
    Rel (FSim 0) (Bolt.safetyFactors reg (P.elem 0) (A.elem 0) k size cls xb (S.elem 0) xL)
      (Bolt.safetyFactorsV reg P A K size cls (.scalar xb) S (.scalar xL)) := by
  unfold Bolt.safetyFactors Bolt.safetyFactorsV
  refine (relV_parse P reg 0).bind fun _ _ h1 => (relV_parse A reg 0).bind fun _ _ h2 =>
    (parse_scalar xb).bind fun sb vb h3 => (relV_parse S reg 0).bind fun sp vp h4 =>
    (parse_scalar xL).bind fun l vl h5 => ?_
  subst h3 h5
  refine (relV_check h1 _ _).bind fun _ _ _ =>
    (relV_check h2 _ _).bind fun _ _ _ => (relV_check (vsim_one _) _ _).bind fun _ _ _ =>
    (relV_check h4 _ _).bind fun _ _ _ => (relV_check (vsim_one _) _ _).bind fun _ _ _ =>
    (h1.sub (vsim_one _)).bind fun _ _ k1 => (k1.mul h2).bind fun _ _ k2 =>
    (divNs_elem k2 hk).bind fun _ _ k3 => ?_
  have hs := stressAreas_plate_zero (reg := reg) size cls (.quantity sb) (Bolt.pass vp) (.quantity l)
  rw [pass_elem h4] at hs
  exact hs.bind fun _ _ hA => factors_tail k3 (vsim_one _) h4 hA

theorem safetyFactors_elem {i : Fin (n + 1)} {k : ℝ} (hk : K.get i = some k) :
    Rel2 (FSim i) (Bolt.safetyFactors reg (P.elem i) (A.elem i) k size cls (B.elem i) (S.elem i) (L.elem i))
      (Bolt.safetyFactorsV reg P A K size cls B S L) := by
  unfold Bolt.safetyFactors Bolt.safetyFactorsV
  refine (relV_parse P reg i).weaken.bind fun _ _ h1 => (relV_parse A reg i).weaken.bind fun _ _ h2 =>
    (relV_parse B reg i).weaken.bind fun sb vb h3 => (relV_parse S reg i).weaken.bind fun sp vp h4 =>
    (relV_parse L reg i).weaken.bind fun l vl h5 => Rel2.any.bind fun _ _ _ =>
    Rel2.any.bind fun _ _ _ => Rel2.any.bind fun _ _ _ => Rel2.any.bind fun _ _ _ => Rel2.any.bind fun _ _ _ =>
    (h1.sub (vsim_one _)).weaken.bind fun _ _ k1 => (k1.mul h2).weaken.bind fun _ _ k2 =>
    (divNs_elem k2 hk).weaken.bind fun _ _ k3 => ?_
  have hs := stressAreas_elem (reg := reg) size cls (Bolt.pass vb) (Bolt.pass vp) (Bolt.pass vl) i
  rw [pass_elem h3, pass_elem h4, pass_elem h5] at hs
  exact hs.bind fun _ _ hA => (factors_tail k3 h3 h4 hA).weaken

theorem safetyFactors_never {x : VN n × VN n} (hn : n ≠ 0) (h : B.isArray = true ∨ L.isArray = true) :
    Bolt.safetyFactorsV reg P A K size cls B S L ≠ .ok x := by
  intro ho
  simp only [Bolt.safetyFactorsV, bind_eq_ok] at ho
  obtain ⟨_, _, _, _, sb, hb, _, _, l, hl, _, _, _, _, _, _, _, _, _, _, _, _, _, _, _, _, t, ht, _⟩ := ho
  refine stressAreas_never hn ?_ ht
  rwa [pass_isArr, pass_isArr, parse_arr hb, parse_arr hl]

theorem ok_of {α β : Type} {R : α → β → Prop} {s : Py α} {v : Py β} {a : α} (h : RelT n R s v) (hs : s = .ok a) :
    (n ≠ 0 ∧ v = .error .ambiguousTruth) ∨ ∃ b, v = .ok b ∧ R a b := by
  rcases h with h | h
  · exact .inl h
  · subst hs
    exact .inr h

/-- Where the array call cannot return and the scalar call on the first elements does, the refusal is the ambiguous truth
value. -/
theorem refused {α β : Type} {R : α → β → Prop} {s : Py α} {v : Py β} {a : α} (h : RelT n R s v) (hv : ∀ b, v ≠ .ok b)
    (hs : s = .ok a) : v = .error .ambiguousTruth := by
  rcases ok_of h hs with ⟨_, h⟩ | ⟨b, hb, _⟩
  · exact h
  · exact absurd hb (hv b)

end VectorTube

/-! ## The properties -/

open VectorTube

/-- C110: if every diameter on its own is a valid call, `calculate_blockage_diameter` on the array returns the array of the
results. -/
theorem C110_blockage_diameter_elementwise {x : AIn n} {br : NumIn} {q : Fin (n + 1) → Quantity}
    (h : ∀ i, DDT.blockageDiameter reg (x.elem i) br = .ok (q i)) :
    ∃ R, DDT.blockageDiameterV reg x br = .ok R ∧ ∀ i, R.get i = some (q i) := by
  have h0 := blockageDiameter_zero (reg := reg) x br
  rw [h 0] at h0
  obtain ⟨R, hR, -⟩ := h0
  exact ⟨R, hR, fun i => blockageDiameter_elem x br i _ _ (h i) hR⟩

/-- C110: `calculate_max_stress` on an array of temperatures.  No sign is examined here: one valid element is enough. -/
theorem C110_max_stress_elementwise {x : AIn n} {material : String} {welded : Bool} {i : Fin (n + 1)} {q : Quantity}
    (h : Tube.maxStress reg (x.elem i) material welded = .ok q) :
    ∃ R, Tube.maxStressV reg x material welded = .ok R ∧
      ∀ j, ∃ q', Tube.maxStress reg (x.elem j) material welded = .ok q' ∧ R.get j = some q' := by
  have h0 := maxStress_elem (reg := reg) x material welded i
  rw [h] at h0
  obtain ⟨R, hR, hi⟩ := h0
  refine ⟨R, hR, fun j => ?_⟩
  have hj := maxStress_elem (reg := reg) x material welded j
  rw [hR] at hj
  cases hs : Tube.maxStress reg (x.elem j) material welded with
  | ok q' =>
    rw [hs] at hj
    obtain ⟨R', hR', hj⟩ := hj
    cases hR'
    exact ⟨q', rfl, hj⟩
  | error e =>
    exfalso
    simp only [Tube.maxStress, bind_eq_ok] at h
    obtain ⟨t, ht, pts, hpts, h⟩ := h
    have ht' : ∃ t', parseQ (x.elem j) reg = .ok t' ∧ t'.unit = t.unit := by
      cases x with
      | quantity m u r => cases ht; exact ⟨_, rfl, rfl⟩
      | pair m u =>
        simp only [AIn.elem, parseQ] at ht ⊢
        cases hp : reg.parse u with
        | none => rw [hp] at ht; cases ht
        | some pu => rw [hp] at ht; cases ht; exact ⟨_, rfl, rfl⟩
      | scalar x => exact ⟨t, ht, rfl⟩
    obtain ⟨t', ht', hu⟩ := ht'
    split at h
    · rename_i hI
      have hc : t.unit.dim = PUnit.degF.dim := by
        by_contra hc
        simp [Quantity.convert, hc] at h
      simp [Tube.maxStress, ht', hpts, hI, Quantity.convert, hu, hc] at hs
    · cases h

/-- C110: if every element on its own is a valid call, `calculate_max_pressure` on arrays of diameters and stresses returns the
array of the results; whatever the other elements are, it returns the element's own result there. -/
theorem C110_max_pressure_elementwise {D d S : VQ n} {sf : ℝ} {i : Fin (n + 1)} {p q s r : Quantity}
    (hp : d.get i = some p) (hq : D.get i = some q) (hs : S.get i = some s) (h : Tube.maxPressure p q s sf = .ok r) :
    ∃ R, Tube.maxPressureV d D S sf = .ok R ∧ R.get i = some r := by
  have := maxPressure_elem sf hp hq hs
  rw [h] at this
  exact this

/-- C110: `calculate_stress_areas` on an array of plate strengths: if every strength on its own is a valid call, the areas and
the minimum engagements are the arrays of the results, and the warning is the common one. -/
theorem C110_stress_areas_elementwise {size cls : String} {xb xL : QIn} {S : AIn n} {A : Fin (n + 1) → Bolt.Areas}
    (h : ∀ i, Bolt.stressAreas reg size cls xb (S.elem i) xL = .ok (A i)) :
    ∃ V, Bolt.stressAreasV reg size cls (.scalar xb) S (.scalar xL) = .ok V ∧ ∀ i, V.plate.get i = some (A i).plate ∧
      V.screw.get i = some (A i).screw ∧ V.minEngagement.get i = some (A i).minEngagement ∧ V.warned = (A i).warned := by
  have h0 := stressAreas_plate_zero (reg := reg) size cls xb S xL
  rw [h 0] at h0
  obtain ⟨V, hV, -⟩ := h0
  refine ⟨V, hV, fun i => ?_⟩
  have := stressAreas_elem (reg := reg) size cls (.scalar xb) S (.scalar xL) i _ _ (h i) hV
  exact ⟨this.plate, this.screw, this.minEngagement, this.warned⟩

/-- C110: `calculate_safety_factors` with arrays of pressures, areas, bolt counts and plate strengths (scalar bolt strength and
engagement). -/
theorem C110_safety_factors_elementwise {P A S : AIn n} {K : VN n} {size cls : String} {xb xL : QIn} {k : Fin (n + 1) → ℝ}
    {x : Fin (n + 1) → ℝ × ℝ} (hk : ∀ i, K.get i = some (k i))
    (h : ∀ i, Bolt.safetyFactors reg (P.elem i) (A.elem i) (k i) size cls xb (S.elem i) xL = .ok (x i)) :
    ∃ b p, Bolt.safetyFactorsV reg P A K size cls (.scalar xb) S (.scalar xL) = .ok (b, p) ∧
      ∀ i, b.get i = some (x i).1 ∧ p.get i = some (x i).2 := by
  have h0 := safetyFactors_scalar (reg := reg) (P := P) (A := A) (S := S) (size := size) (cls := cls) (xb := xb) (xL := xL)
    (hk 0)
  rw [h 0] at h0
  obtain ⟨⟨b, p⟩, hV, -⟩ := h0
  exact ⟨b, p, hV, fun i => safetyFactors_elem (B := .scalar xb) (L := .scalar xL) (hk i) _ _ (h i) hV⟩

/-- C110: `dynamic_load_factor` never answers for an array of more than one element in any argument; if the first elements on
their own are a valid call, what it raises is NumPy's ValueError. -/
theorem C110_load_factor_refused {a b v c d : AIn n} {po pm : ℝ} (hn : n ≠ 0)
    (h : a.isArray = true ∨ b.isArray = true ∨ v.isArray = true ∨ c.isArray = true ∨ d.isArray = true) :
    (∀ x, Tube.dynamicLoadFactorV a b v c d po pm ≠ .ok x) ∧
      ∀ x, Tube.dynamicLoadFactor (a.elem 0) (b.elem 0) (v.elem 0) (c.elem 0) (d.elem 0) po pm = .ok x →
        Tube.dynamicLoadFactorV a b v c d po pm = .error .ambiguousTruth :=
  ⟨fun _ => loadFactor_never hn h, fun _ => refused (loadFactor_zero a b v c d po pm) fun _ => loadFactor_never hn h⟩

/-- C110: the same for `calculate_blockage_ratio`. -/
theorem C110_blockage_ratio_refused {a b : AIn n} (hn : n ≠ 0) (h : a.isArray = true ∨ b.isArray = true) :
    (∀ x, DDT.blockageRatioV reg a b ≠ .ok x) ∧
      ∀ x, DDT.blockageRatio reg (a.elem 0) (b.elem 0) = .ok x → DDT.blockageRatioV reg a b = .error .ambiguousTruth :=
  ⟨fun _ => blockageRatio_never hn h, fun _ => refused (blockageRatio_zero a b) fun _ => blockageRatio_never hn h⟩

/-- C110: the same for `calculate_stress_areas` and `calculate_safety_factors` with an array of bolt strengths or engagement
lengths. -/
theorem C110_thread_arrays_refused {P A B S L : AIn n} {K : VN n} {size cls : String} (hn : n ≠ 0)
    (h : B.isArray = true ∨ L.isArray = true) :
    (∀ x, Bolt.stressAreasV reg size cls B S L ≠ .ok x) ∧ (∀ x, Bolt.safetyFactorsV reg P A K size cls B S L ≠ .ok x) ∧
      (∀ x, Bolt.stressAreas reg size cls (B.elem 0) (S.elem 0) (L.elem 0) = .ok x →
        Bolt.stressAreasV reg size cls B S L = .error .ambiguousTruth) ∧
      ∀ k x, K.get 0 = some k →
        Bolt.safetyFactors reg (P.elem 0) (A.elem 0) k size cls (B.elem 0) (S.elem 0) (L.elem 0) = .ok x →
        Bolt.safetyFactorsV reg P A K size cls B S L = .error .ambiguousTruth :=
  ⟨fun _ => stressAreas_never hn h, fun _ => safetyFactors_never hn h,
    fun _ => refused (stressAreas_zero size cls B S L) fun _ => stressAreas_never hn h,
    fun _ _ hk => refused (safetyFactors_zero hk) fun _ => safetyFactors_never hn h⟩

/-- C110: arrays of one element behave as scalars, in all these functions. -/
theorem C110_one_element {P A B S L : AIn 0} {K : VN 0} {size cls : String} :
    (∀ po pm x, Tube.dynamicLoadFactor (P.elem 0) (A.elem 0) (B.elem 0) (S.elem 0) (L.elem 0) po pm = .ok x →
      Tube.dynamicLoadFactorV P A B S L po pm = .ok x) ∧
    (∀ x, DDT.blockageRatio reg (A.elem 0) (B.elem 0) = .ok x →
      ∃ v, DDT.blockageRatioV reg A B = .ok v ∧ v.get 0 = some x) ∧
    (∀ a, Bolt.stressAreas reg size cls (B.elem 0) (S.elem 0) (L.elem 0) = .ok a →
      ∃ v, Bolt.stressAreasV reg size cls B S L = .ok v ∧ v.plate.get 0 = some a.plate ∧ v.screw.get 0 = some a.screw ∧
        v.minEngagement.get 0 = some a.minEngagement ∧ v.warned = a.warned) ∧
    ∀ k x, K.get 0 = some k →
      Bolt.safetyFactors reg (P.elem 0) (A.elem 0) k size cls (B.elem 0) (S.elem 0) (L.elem 0) = .ok x →
      ∃ b p, Bolt.safetyFactorsV reg P A K size cls B S L = .ok (b, p) ∧ b.get 0 = some x.1 ∧ p.get 0 = some x.2 := by
  refine ⟨fun po pm x h => ?_, fun x h => ?_, fun a h => ?_, fun k x hk h => ?_⟩
  · rcases ok_of (loadFactor_zero P A B S L po pm) h with ⟨h, _⟩ | ⟨b, hb, rfl⟩
    · exact absurd rfl h
    · exact hb
  · rcases ok_of (blockageRatio_zero A B) h with ⟨h, _⟩ | h
    · exact absurd rfl h
    · exact h
  · rcases ok_of (stressAreas_zero size cls B S L) h with ⟨h, _⟩ | ⟨v, hv, h⟩
    · exact absurd rfl h
    · exact ⟨v, hv, h.plate, h.screw, h.minEngagement, h.warned⟩
  · rcases ok_of (safetyFactors_zero hk) h with ⟨h, _⟩ | ⟨⟨b, p⟩, hv, h⟩
    · exact absurd rfl h
    · exact ⟨b, p, hv, h.1, h.2⟩

/-- C110, what `calculate_blockage_diameter` does with an array in general: only the sign of the first diameter is examined (as in
C83), the others are used as they are. -/
theorem C110_blockage_diameter_value {m : Fin (n + 1) → ℝ} {u : PUnit} {r : ℕ} {br : ℝ} (hd : u.dim = Dim.length)
    (hu : u.offset = 0) (h0 : 0 < br) (h1 : br < 1) (hm : 0 ≤ m 0) :
    ∃ R, DDT.blockageDiameterV reg (.quantity m u r) (.num br) = .ok R ∧
      ∀ i, R.get i = some ⟨(1 - Real.sqrt (1 - br)) * (m i / 2), u, reg.id⟩ := by
  have hc : checkA (n := n) ⟨fun i => some (m i), u, reg.id⟩ "length" true = .ok () :=
    checkQ_ok lookup_length hd (by
      simp only [Quantity.phys, hu, add_zero]
      exact mul_nonneg hm u.pos.le)
  refine ⟨.arr ⟨fun i => some ((1 - Real.sqrt (1 - br)) * (m i / 2)), u, reg.id⟩, ?_, fun i => rfl⟩
  unfold DDT.blockageDiameterV
  simp [h0, h1, parseV, parseA, Except.map, checkV, hc, VQ.divNum, VQ.lift₁, QArr.divNums, QArr.noOffset, hu, VQ.scale, QArr.scale,
    QArr.zip]

/-! ### The hypotheses are met -/

/-- Two pipe diameters. -/
noncomputable def exDiameters : AIn 1 := .quantity ![0.1, 0.2] PUnit.meter 7

theorem exDiameters_denotes (reg : Registry) (i : Fin 2) :
    DenotesM reg (exDiameters.elem i) Dim.length (![0.1, 0.2] i) := by
  refine ⟨⟨rfl, ?_⟩, rfl⟩
  norm_num [PUnit.meter, PUnit.base]

example (reg : Registry) : ∃ R : VQ 1, DDT.blockageDiameterV reg exDiameters (.num 0.44) = .ok R ∧
    ∀ i, ∃ q, DDT.blockageDiameter reg (exDiameters.elem i) (.num 0.44) = .ok q ∧ R.get i = some q := by
  have h : ∀ i, ∃ q, DDT.blockageDiameter reg (exDiameters.elem i) (.num 0.44) = .ok q := fun i => by
    obtain ⟨q, hq, -⟩ := DDT.C06_ratio_of_diameter (br := 0.44) (exDiameters_denotes reg i)
      (by fin_cases i <;> simp <;> norm_num) (by norm_num) (by norm_num)
    exact ⟨q, hq⟩
  choose q hq using h
  obtain ⟨R, hR, h⟩ := C110_blockage_diameter_elementwise hq
  exact ⟨R, hR, fun i => ⟨q i, hq i, h i⟩⟩

/-- Blockage ratios of two pipes with one blockage are refused. -/
example (reg : Registry) : DDT.blockageRatioV reg exDiameters (.scalar (.quantity ⟨0.01, PUnit.meter, 7⟩)) =
    .error .ambiguousTruth := by
  obtain ⟨br, hbr, -⟩ := DDT.C08_ratio_value (reg := reg) (x := exDiameters.elem 0) (y := .quantity ⟨0.01, PUnit.meter, 7⟩)
    (D := 0.1) (d := 0.01) (by simpa using (exDiameters_denotes reg 0).1) ⟨rfl, by norm_num [PUnit.meter, PUnit.base]⟩
    (by norm_num) (by norm_num)
  exact (C110_blockage_ratio_refused (by norm_num) (.inl rfl)).2 br hbr

/-- Three plate strengths. -/
noncomputable def exPlates : AIn 2 := .quantity ![60000, 50000, 40000] PUnit.psi 0

example (reg : Registry) : ∃ b p : VN 2, Bolt.safetyFactorsV reg (.scalar (.quantity ⟨20, PUnit.bar, 0⟩))
    (.scalar (.quantity ⟨0.01, PUnit.base Dim.area, 0⟩)) (.arr ![some 8, some 9, some 10]) "1/4-20" "2"
    (.scalar (.quantity ⟨80000, PUnit.psi, 0⟩)) exPlates (.scalar (.quantity ⟨1, PUnit.inch, 0⟩)) = .ok (b, p) ∧
    ∀ i, ∃ x, Bolt.safetyFactors reg (.quantity ⟨20, PUnit.bar, 0⟩) (.quantity ⟨0.01, PUnit.base Dim.area, 0⟩) (![8, 9, 10] i)
      "1/4-20" "2" (.quantity ⟨80000, PUnit.psi, 0⟩) (exPlates.elem i) (.quantity ⟨1, PUnit.inch, 0⟩) = .ok x ∧
      b.get i = some x.1 ∧ p.get i = some x.2 := by
  have h : ∀ i : Fin 3, ∃ x, Bolt.safetyFactors reg (.quantity ⟨20, PUnit.bar, 0⟩) (.quantity ⟨0.01, PUnit.base Dim.area, 0⟩)
      (![8, 9, 10] i) "1/4-20" "2" (.quantity ⟨80000, PUnit.psi, 0⟩) (exPlates.elem i) (.quantity ⟨1, PUnit.inch, 0⟩) =
        .ok x := fun i =>
    ⟨_, Bolt.C24_safety_factors (sp := ![60000, 50000, 40000] i) Bolt.t1420_tabulated (Bolt.bar20 reg) (Bolt.area1 reg)
      (Bolt.ksi80 reg) ⟨⟨rfl, by simp [PUnit.psi, psiPa]⟩, rfl⟩ (Bolt.len1 reg) (by norm_num) (by norm_num) (by norm_num)
      (by norm_num) (by fin_cases i <;> simp) (by norm_num) (by fin_cases i <;> simp)⟩
  choose x hx using h
  obtain ⟨b, p, hbp, h⟩ := C110_safety_factors_elementwise (n := 2)
    (P := .scalar (.quantity ⟨20, PUnit.bar, 0⟩)) (A := .scalar (.quantity ⟨0.01, PUnit.base Dim.area, 0⟩)) (S := exPlates)
    (K := .arr ![some 8, some 9, some 10]) (k := ![8, 9, 10])
    (fun i => by fin_cases i <;> rfl) hx
  exact ⟨b, p, hbp, fun i => ⟨x i, hx i, h i⟩⟩

/-- Two engagement lengths are refused. -/
example (reg : Registry) : Bolt.safetyFactorsV (n := 1) reg (.scalar (.quantity ⟨20, PUnit.bar, 0⟩))
    (.scalar (.quantity ⟨0.01, PUnit.base Dim.area, 0⟩)) (.one 8) "1/4-20" "2" (.scalar (.quantity ⟨80000, PUnit.psi, 0⟩))
    (.scalar (.quantity ⟨60000, PUnit.psi, 0⟩)) (.quantity ![1, 2] PUnit.inch 0) = .error .ambiguousTruth :=
  (C110_thread_arrays_refused (by norm_num) (.inr rfl)).2.2.2 8 _ rfl
    (Bolt.C24_safety_factors (n := 8) Bolt.t1420_tabulated (Bolt.bar20 reg) (Bolt.area1 reg) (Bolt.ksi80 reg) (Bolt.ksi60 reg)
      (Bolt.len1 reg) (by norm_num) (by norm_num) (by norm_num) (by norm_num) (by norm_num) (by norm_num) (by norm_num))

/-- The maximum pressures of two tubes. -/
example : ∃ R : VQ 1, Tube.maxPressureV (.arr ⟨![some 5, some 6], PUnit.inch, 0⟩) (.arr ⟨![some 6, some 7], PUnit.inch, 0⟩)
    (.one ⟨16, PUnit.ksi, 0⟩) 4 = .ok R := by
  have h : ∃ r, Tube.maxPressure ⟨5, PUnit.inch, 0⟩ ⟨6, PUnit.inch, 0⟩ ⟨16, PUnit.ksi, 0⟩ 4 = .ok r := by
    simp [Tube.maxPressure, Quantity.add, Quantity.sub, Quantity.divNum, Quantity.scale, Quantity.mul, Quantity.div,
      Quantity.sameReg, Quantity.noOffset, PUnit.inch, PUnit.ksi, PUnit.mul]
    norm_num
  obtain ⟨r, hr⟩ := h
  obtain ⟨R, hR, -⟩ := C110_max_pressure_elementwise (n := 1) (i := 0)
    (d := .arr ⟨![some 5, some 6], PUnit.inch, 0⟩) (D := .arr ⟨![some 6, some 7], PUnit.inch, 0⟩)
    (S := .one ⟨16, PUnit.ksi, 0⟩) rfl rfl rfl hr
  exact ⟨R, hR⟩

/-- Two velocities in one load factor call are refused. -/
example : Tube.dynamicLoadFactorV (n := 1) (.scalar (.quantity ⟨4, PUnit.inch, 0⟩)) (.scalar (.quantity ⟨4.5, PUnit.inch, 0⟩))
    (.quantity ![2000, 2100] PUnit.meterPerSecond 1) (.scalar (.quantity ⟨200, PUnit.gigapascal, 0⟩))
    (.scalar (.quantity ⟨7.8, PUnit.gramPerCC, 0⟩)) 0.28 0.1 = .error .ambiguousTruth := by
  have hD : Tube.DlfArgs ⟨4, PUnit.inch, 0⟩ ⟨4.5, PUnit.inch, 0⟩ ⟨2000, PUnit.meterPerSecond, 1⟩
      ⟨200, PUnit.gigapascal, 0⟩ ⟨7.8, PUnit.gramPerCC, 0⟩ 0.1016 0.1143 2000 200000000000 7800 0.28 0 1 := by
    refine ⟨⟨rfl, rfl, ?_, rfl⟩, ⟨rfl, rfl, ?_, rfl⟩, ⟨rfl, rfl, ?_, rfl⟩, ⟨rfl, rfl, ?_, rfl⟩,
      ⟨rfl, rfl, ?_, rfl⟩, ?_, ?_, ?_, ?_, ?_, ?_⟩ <;>
    norm_num [PUnit.inch, PUnit.meterPerSecond, PUnit.base, PUnit.gigapascal, PUnit.gramPerCC]
  obtain ⟨f, hf, -⟩ := Tube.C32_classification (pm := 0.1) hD (by norm_num)
  exact (C110_load_factor_refused (by norm_num) (.inr (.inr (.inl rfl)))).2 f hf

end Pypbomb
