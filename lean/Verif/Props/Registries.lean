/-
C109: which unit registry the arguments come from makes no difference, and the registry asked for only decides where the
result lives.
-/
import Verif.Lemmas.Relabel
import Verif.Model.MaxInitial
import Verif.Model.Flange
import Verif.Model.Window

namespace Pypbomb

/-- The same quantity (magnitude and unit) belonging to registry `r`. -/
def Quantity.inRegistry (r : ℕ) (q : Quantity) : Quantity := ⟨q.mag, q.unit, r⟩

/-- The same argument, issued by registry `r`: only quantities belong to one. -/
def QIn.issuedBy (r : ℕ) : QIn → QIn
  | .quantity q => .quantity (q.inRegistry r)
  | x => x

/-- Two registries that know the same unit names. -/
def SameNames (reg reg' : Registry) : Prop := ∀ s, reg'.parse s = reg.parse s

namespace Registries

theorem parseQ_rel {reg reg' : Registry} (h : SameNames reg reg') (x : QIn) (r : ℕ) :
    Runs (QR reg.id reg'.id) (parseQ x reg) (parseQ (x.issuedBy r) reg') := by
  cases x with
  | quantity q => exact QR.mk _ _
  | pair m u =>
    simp only [parseQ, QIn.issuedBy, h u]
    cases reg.parse u
    · exact Runs.err _
    · exact QR.mk _ _
  | other => exact Runs.err _

theorem parseQ_rel' {reg reg' : Registry} {a b : Quantity} {r s : ℕ} (hq : QR r s a b) :
    Runs (QR reg.id reg'.id) (parseQ (.quantity a) reg) (parseQ (.quantity b) reg') := by
  obtain ⟨m, u, rfl, rfl⟩ := hq.cases_eq
  exact QR.mk _ _

theorem QR.mk' {a b : Quantity} {r s : ℕ} (t t' : ℕ) (h : QR r s a b) : QR t t' ⟨a.mag, a.unit, t⟩ ⟨b.mag, b.unit, t'⟩ :=
  ⟨rfl, rfl, h.2.2.1, h.2.2.2⟩

theorem Runs.bindQ {γ δ : Type} {S : γ → δ → Prop} {x y : Py Quantity} {f : Quantity → Py γ} {g : Quantity → Py δ} {r s : ℕ}
    (h : Runs (QR r s) x y) (k : ∀ m u, Runs S (f ⟨m, u, r⟩) (g ⟨m, u, s⟩)) : Runs S (x >>= f) (y >>= g) :=
  Runs.bind h fun a b hab => by
    obtain ⟨m, u, rfl, rfl⟩ := hab.cases_eq
    exact k m u

theorem Runs.bindE {α γ δ : Type} {S : γ → δ → Prop} {x y : Py α} {f : α → Py γ} {g : α → Py δ}
    (h : Runs Eq x y) (k : ∀ a, Runs S (f a) (g a)) : Runs S (x >>= f) (y >>= g) :=
  Runs.bind h fun a b hab => by
    subst hab
    exact k a

theorem relabel {r s : ℕ} (a b : Quantity) (h : QR r s a b) : b = a.inRegistry s := by
  obtain ⟨m, u, rfl, rfl⟩ := h.cases_eq
  rfl

/-- A relation between two quantities at hand. -/
macro "qr" : tactic => `(tactic| first | assumption | exact QR.mk _ _ | (apply QR.toBase; first | assumption | exact QR.mk _ _) | (apply QR.mk'; assumption))

/-- Steps through two runs of the same program. -/
macro "rel_step" : tactic => `(tactic| first
  | with_reducible refine Runs.bindQ (parseQ_rel (by assumption) _ _) (fun _ _ => ?_)
  | with_reducible refine Runs.bindQ (parseQ_rel' (by qr)) (fun _ _ => ?_)
  | with_reducible refine Runs.bindE (QR.checkQ _ _ (by qr)) (fun _ => ?_)
  | with_reducible refine Runs.bindQ (QR.mul (by qr) (by qr)) (fun _ _ => ?_)
  | with_reducible refine Runs.bindQ (QR.div (by qr) (by qr)) (fun _ _ => ?_)
  | with_reducible refine Runs.bindQ (QR.add (by qr) (by qr)) (fun _ _ => ?_)
  | with_reducible refine Runs.bindQ (QR.sub (by qr) (by qr)) (fun _ _ => ?_)
  | with_reducible refine Runs.bindQ (QR.scale _ (by qr)) (fun _ _ => ?_)
  | with_reducible refine Runs.bindQ (QR.divNum _ (by qr)) (fun _ _ => ?_)
  | with_reducible refine Runs.bindQ (QR.rdiv _ (by qr)) (fun _ _ => ?_)
  | with_reducible refine Runs.bindQ (QR.addNum _ (by qr)) (fun _ _ => ?_)
  | with_reducible refine Runs.bindQ (QR.pow _ (by qr)) (fun _ _ => ?_)
  | with_reducible refine Runs.bindQ (QR.convert _ (by qr)) (fun _ _ => ?_)
  | with_reducible refine Runs.bindE (QR.log (by qr)) (fun _ => ?_)
  | with_reducible refine Runs.bindE (QR.lt (by qr) (by qr)) (fun _ => ?_)
  | with_reducible refine Runs.bindE (QR.ge (by qr) (by qr)) (fun _ => ?_)
  | with_reducible refine Runs.bindE (QR.toNumber (by qr)) (fun _ => ?_)
  | with_reducible refine Runs.bindE (Runs.refl _) (fun _ => ?_)
  | with_reducible exact QR.toNumber (by qr)
  | with_reducible exact QR.convert _ (by qr)
  | with_reducible exact QR.scale _ (by qr)
  | with_reducible exact QR.pow _ (by qr)
  | with_reducible exact QR.div (by qr) (by qr)
  | with_reducible exact QR.mul (by qr) (by qr)
  | with_reducible exact Runs.err _
  | with_reducible exact Runs.refl _
  | with_reducible exact Runs.ok (by qr)
  | with_reducible exact Runs.ok rfl)

variable {reg reg' : Registry} {r s : ℕ}

theorem safetyFactorFormula_rel {a b c d e a' b' c' d' e' : Quantity} (ha : QR r s a a') (hb : QR r s b b')
    (hc : QR r s c c') (hd : QR r s d d') (he : QR r s e e') :
    Runs Eq (Window.safetyFactorFormula a b c d e) (Window.safetyFactorFormula a' b' c' d' e') := by
  unfold Window.safetyFactorFormula
  dsimp only
  repeat rel_step

theorem thicknessFormula_rel {a b d e a' b' d' e' : Quantity} (sf : ℝ) (ha : QR r s a a') (hb : QR r s b b')
    (hd : QR r s d d') (he : QR r s e e') :
    Runs (QR r s) (Window.thicknessFormula a b sf d e) (Window.thicknessFormula a' b' sf d' e') := by
  unfold Window.thicknessFormula
  dsimp only
  rw [hb.2.2.2]
  repeat rel_step

theorem safetyFactor_rel (h : SameNames reg reg') (a b c d e : QIn) (ra rb rc rd re : ℕ) :
    Runs Eq (Window.safetyFactor reg a b c d e) (Window.safetyFactor reg' (a.issuedBy ra) (b.issuedBy rb) (c.issuedBy rc)
      (d.issuedBy rd) (e.issuedBy re)) := by
  unfold Window.safetyFactor
  dsimp only
  repeat rel_step
  apply safetyFactorFormula_rel <;> qr

theorem minimumThickness_rel (h : SameNames reg reg') (a b : QIn) (sf : NumIn) (c d : QIn) (ra rb rc rd : ℕ) :
    Runs (QR reg.id reg'.id) (Window.minimumThickness reg a b sf c d) (Window.minimumThickness reg' (a.issuedBy ra)
      (b.issuedBy rb) sf (c.issuedBy rc) (d.issuedBy rd)) := by
  unfold Window.minimumThickness
  dsimp only
  repeat rel_step
  cases sf
  · refine Runs.ite (fun _ => Runs.err _) fun _ => ?_
    apply thicknessFormula_rel <;> qr
  · exact Runs.err _
  · exact Runs.err _

/-! ### DDT -/

theorem blockageDiameter_rel (h : SameNames reg reg') (a : QIn) (br : NumIn) (ra : ℕ) :
    Runs (QR reg.id reg'.id) (DDT.blockageDiameter reg a br) (DDT.blockageDiameter reg' (a.issuedBy ra) br) := by
  unfold DDT.blockageDiameter
  rcases br with x | (_ | x) | _ <;> dsimp only [ok_bind, err_bind] <;> try exact Runs.err _
  all_goals
    refine Runs.ite (fun _ => Runs.err _) fun _ => ?_
    repeat rel_step

theorem blockageRatio_rel (h : SameNames reg reg') (a b : QIn) (ra rb : ℕ) :
    Runs Eq (DDT.blockageRatio reg a b) (DDT.blockageRatio reg' (a.issuedBy ra) (b.issuedBy rb)) := by
  unfold DDT.blockageRatio
  repeat rel_step
  dsimp only [Quantity.toBase, Quantity.phys]
  refine Runs.ite (fun _ => Runs.err _) fun _ => ?_
  repeat rel_step

theorem flameSpeed_rel (ct : Cantera) (h : SameNames reg reg') (t p : QIn) (x : ct.Species) (mech phase : String) (rt rp : ℕ) :
    Runs (QR reg.id reg'.id) (Thermochem.laminarFlameSpeed ct reg t p x mech phase)
      (Thermochem.laminarFlameSpeed ct reg' (t.issuedBy rt) (p.issuedBy rp) x mech phase) := by
  unfold Thermochem.laminarFlameSpeed
  repeat rel_step

theorem soundSpeed_rel (ct : Cantera) (h : SameNames reg reg') (t p : QIn) (x : ct.Species) (mech phase : String) (rt rp : ℕ) :
    Runs (QR reg.id reg'.id) (Thermochem.eqSoundSpeed ct reg t p x mech phase)
      (Thermochem.eqSoundSpeed ct reg' (t.issuedBy rt) (p.issuedBy rp) x mech phase) := by
  unfold Thermochem.eqSoundSpeed
  repeat rel_step

theorem eq41_rel (rho mu sigma br : ℝ) {l c t l' c' t' : Quantity} (hl : QR r s l l') (hc : QR r s c c') (ht : QR r s t t') :
    Runs (QR r s) (DDT.eq41 r rho mu l c sigma t br) (DDT.eq41 s rho mu l' c' sigma t' br) := by
  obtain ⟨_, _, rfl, rfl⟩ := hl.cases_eq
  obtain ⟨_, _, rfl, rfl⟩ := hc.cases_eq
  obtain ⟨_, _, rfl, rfl⟩ := ht.cases_eq
  unfold DDT.eq41
  dsimp only
  repeat rel_step

theorem eq44_rel (sigma br : ℝ) {l c t l' c' t' : Quantity} (hl : QR r s l l') (hc : QR r s c c') (ht : QR r s t t') :
    Runs (QR r s) (DDT.eq44 l c sigma t br) (DDT.eq44 l' c' sigma t' br) := by
  obtain ⟨_, _, rfl, rfl⟩ := hl.cases_eq
  obtain ⟨_, _, rfl, rfl⟩ := hc.cases_eq
  obtain ⟨_, _, rfl, rfl⟩ := ht.cases_eq
  unfold DDT.eq44
  dsimp only
  repeat rel_step

theorem runUpChoice_rel (rhoMu : Py (ℝ × ℝ)) (sigma br : ℝ) {l c t l' c' t' : Quantity} (hl : QR reg.id reg'.id l l')
    (hc : QR reg.id reg'.id c c') (ht : QR reg.id reg'.id t t') :
    Runs (QR reg.id reg'.id) (DDT.runUpChoice reg rhoMu l c sigma t br) (DDT.runUpChoice reg' rhoMu l' c' sigma t' br) := by
  unfold DDT.runUpChoice
  refine Runs.ite (fun _ => eq44_rel _ _ hl hc ht) fun _ => Runs.ite (fun _ => ?_) fun _ => ?_
  · rel_step
    exact eq41_rel _ _ _ _ hl hc ht
  · rel_step
    refine Runs.bindQ (eq41_rel _ _ _ _ hl hc ht) fun _ _ => Runs.bindQ (eq44_rel _ _ hl hc ht) fun _ _ => ?_
    exact Runs.ok ⟨rfl, rfl, rfl, ht.2.2.2⟩

theorem runUp_rel (ct : Cantera) (h : SameNames reg reg') (br : NumIn) (d t p : QIn) (x : ct.Species) (mech phase : String)
    (rd rt rp : ℕ) :
    Runs (QR reg.id reg'.id) (DDT.runUp ct reg br d t p x mech phase)
      (DDT.runUp ct reg' br (d.issuedBy rd) (t.issuedBy rt) (p.issuedBy rp) x mech phase) := by
  unfold DDT.runUp
  cases br with
  | str _ => exact Runs.err _
  | other => exact Runs.err _
  | num br =>
    refine Runs.ite (fun _ => Runs.err _) fun _ => ?_
    repeat rel_step
    refine Runs.bindQ (flameSpeed_rel ct h _ _ x mech phase reg'.id reg'.id) fun _ _ => ?_
    repeat rel_step
    dsimp only
    refine Runs.bindQ (soundSpeed_rel ct h _ _ x mech phase reg'.id reg'.id) fun _ _ => ?_
    exact runUpChoice_rel _ _ _ (by qr) (by qr) (by qr)

/-! ### Bolt -/

theorem shearArea_rel {a b c d e a' b' c' d' e' : Quantity} (ha : QR r s a a') (hb : QR r s b b')
    (hc : QR r s c c') (hd : QR r s d d') (he : QR r s e e') :
    Runs (QR r s) (Bolt.shearArea a b c d e) (Bolt.shearArea a' b' c' d' e') := by
  unfold Bolt.shearArea
  repeat rel_step

theorem tensileArea_rel {b c d e b' c' d' e' : Quantity} (hb : QR reg.id reg'.id b b')
    (hc : QR reg.id reg'.id c c') (hd : QR reg.id reg'.id d d') (he : QR reg.id reg'.id e e') :
    Runs (QR reg.id reg'.id) (Bolt.tensileArea reg b c d e) (Bolt.tensileArea reg' b' c' d' e') := by
  unfold Bolt.tensileArea
  repeat rel_step
  refine Runs.ite (fun _ => ?_) fun _ => ?_ <;> repeat rel_step

theorem minEngagement_rel {a b c d e a' b' c' d' e' : Quantity} (ha : QR r s a a') (hb : QR r s b b')
    (hc : QR r s c c') (hd : QR r s d d') (he : QR r s e e') :
    Runs (QR r s) (Bolt.minEngagement a b c d e) (Bolt.minEngagement a' b' c' d' e') := by
  unfold Bolt.minEngagement
  repeat rel_step

theorem checkArg_rel (x : QIn) (r : ℕ) (kind : String) :
    Runs (fun a b => a.mag = b.mag ∧ a.unit = b.unit) (Bolt.checkArg x kind) (Bolt.checkArg (x.issuedBy r) kind) := by
  cases x with
  | quantity q =>
    unfold Bolt.checkArg
    exact Runs.bind (R := Eq) (Runs.refl (checkQ q kind true)) fun _ _ _ => ⟨rfl, rfl⟩
  | pair m u => exact Runs.err _
  | other => exact Runs.err _

/-- The same areas, in registries `r` and `s`. -/
def AR (r s : ℕ) (a b : Bolt.Areas) : Prop :=
  QR r s a.plate b.plate ∧ QR r s a.screw b.screw ∧ QR r s a.minEngagement b.minEngagement ∧ a.warned = b.warned

theorem stressAreas_rel (size cls : String) (a b c : QIn) (ra rb rc : ℕ) :
    Runs (AR reg.id reg'.id) (Bolt.stressAreas reg size cls a b c)
      (Bolt.stressAreas reg' size cls (a.issuedBy ra) (b.issuedBy rb) (c.issuedBy rc)) := by
  unfold Bolt.stressAreas
  refine Runs.bind (checkArg_rel _ _ _) fun x x' hx => Runs.bind (checkArg_rel _ _ _) fun y y' hy =>
    Runs.bind (checkArg_rel _ _ _) fun z z' hz => ?_
  have hx : QR reg.id reg'.id (Bolt.rereg reg x) (Bolt.rereg reg' x') := ⟨rfl, rfl, hx.1, hx.2⟩
  have hy : QR reg.id reg'.id (Bolt.rereg reg y) (Bolt.rereg reg' y') := ⟨rfl, rfl, hy.1, hy.2⟩
  have hz : QR reg.id reg'.id (Bolt.rereg reg z) (Bolt.rereg reg' z') := ⟨rfl, rfl, hz.1, hz.2⟩
  dsimp only
  rel_step
  rel_step
  rel_step
  rel_step
  cases parseDigits (splitLast '-' size)
  · exact Runs.err _
  dsimp only [ok_bind]
  rel_step
  refine Runs.bindQ (tensileArea_rel hx (by qr) (by qr) (by qr)) fun _ _ => ?_
  refine Runs.bindQ (shearArea_rel (by qr) hz (by qr) (by qr) (by qr)) fun _ _ => ?_
  rel_step
  refine Runs.bindQ (shearArea_rel (by qr) hz (by qr) (by qr) (by qr)) fun _ _ => ?_
  repeat rel_step
  refine Runs.bindQ (minEngagement_rel (by qr) (by qr) (by qr) (by qr) (by qr)) fun _ _ => ?_
  refine Runs.ok ⟨QR.mk _ _, ?_, QR.mk _ _, rfl⟩
  dsimp only
  split <;> exact QR.mk _ _

theorem safetyFactors_rel (h : SameNames reg reg') (p a : QIn) (n : ℝ) (size cls : String) (b c d : QIn)
    (rp ra rb rc rd : ℕ) :
    Runs Eq (Bolt.safetyFactors reg p a n size cls b c d)
      (Bolt.safetyFactors reg' (p.issuedBy rp) (a.issuedBy ra) n size cls (b.issuedBy rb) (c.issuedBy rc) (d.issuedBy rd)) := by
  unfold Bolt.safetyFactors
  repeat rel_step
  refine Runs.bind (stressAreas_rel size cls _ _ _ reg'.id reg'.id reg'.id) fun x y hxy => ?_
  have h1 : QR reg.id reg'.id (Bolt.rereg reg x.screw) (Bolt.rereg reg' y.screw) := ⟨rfl, rfl, hxy.2.1.2.2.1, hxy.2.1.2.2.2⟩
  have h2 : QR reg.id reg'.id (Bolt.rereg reg x.plate) (Bolt.rereg reg' y.plate) := ⟨rfl, rfl, hxy.1.2.2.1, hxy.1.2.2.2⟩
  dsimp only
  repeat rel_step

/-! ### Flange -/

theorem checkRange_rel {a b : Quantity} (h : QR r s a b) (lo hi : ℝ) (u : PUnit) (msg : String) :
    Runs Eq (Flange.checkRange a lo hi u r msg) (Flange.checkRange b lo hi u s msg) := by
  unfold Flange.checkRange
  repeat rel_step

theorem getClass_rel (u : Registry) (h : SameNames reg reg') (p t : QIn) (m : Tube.MatIn) (rp rt : ℕ) :
    Runs Eq (Flange.getClass u reg p t m) (Flange.getClass u reg' (p.issuedBy rp) (t.issuedBy rt) m) := by
  unfold Flange.getClass Flange.withLimits
  refine Runs.bindE (Runs.refl _) fun lim => ?_
  rel_step
  rel_step
  rel_step
  rel_step
  dsimp only [parseQ, ok_bind]
  exact Runs.refl _

/-! ### Tube -/

theorem maxStress_rel (h : SameNames reg reg') (t : QIn) (m : String) (w : Bool) (rt : ℕ) :
    Runs (QR reg.id reg'.id) (Tube.maxStress reg t m w) (Tube.maxStress reg' (t.issuedBy rt) m w) := by
  unfold Tube.maxStress
  rel_step
  refine Runs.bindE (Runs.refl _) fun pts => ?_
  by_cases hI : Inc pts
  · rw [if_pos hI, if_pos hI]
    repeat rel_step
  · rw [if_neg hI, if_neg hI]
    exact Runs.err _

theorem maxPressure_rel {a b c a' b' c' : Quantity} (sf : ℝ) (ha : QR r s a a') (hb : QR r s b b') (hc : QR r s c c') :
    Runs (QR r s) (Tube.maxPressure a b c sf) (Tube.maxPressure a' b' c' sf) := by
  unfold Tube.maxPressure
  repeat rel_step

theorem critVelocity_rel {a b c d a' b' c' d' : Quantity} (po : ℝ) (ha : QR r s a a') (hb : QR r s b b') (hc : QR r s c c')
    (hd : QR r s d d') : Runs (QR r s) (Tube.critVelocity a b c d po) (Tube.critVelocity a' b' c' d' po) := by
  unfold Tube.critVelocity
  repeat rel_step

theorem checked_rel (x : QIn) (r s : ℕ) (kind : String) (pos : Bool) :
    Runs (QR r s) (Tube.checked (x.issuedBy r) kind pos) (Tube.checked (x.issuedBy s) kind pos) := by
  cases x with
  | quantity q =>
    unfold Tube.checked
    exact Runs.bind (R := Eq) (Runs.refl (checkQ q kind pos)) fun _ _ _ => QR.mk _ _
  | pair m u => exact Runs.err _
  | other => exact Runs.err _

theorem loadFactor_rel (a b v c d : QIn) (po pm : ℝ) (r s rv sv : ℕ) :
    Runs Eq (Tube.dynamicLoadFactor (a.issuedBy r) (b.issuedBy r) (v.issuedBy rv) (c.issuedBy r) (d.issuedBy r) po pm)
      (Tube.dynamicLoadFactor (a.issuedBy s) (b.issuedBy s) (v.issuedBy sv) (c.issuedBy s) (d.issuedBy s) po pm) := by
  unfold Tube.dynamicLoadFactor
  refine Runs.bindQ (checked_rel _ _ _ _ _) fun _ _ => Runs.bindQ (checked_rel _ _ _ _ _) fun _ _ =>
    Runs.bindQ (checked_rel _ _ _ _ _) fun _ _ => Runs.bindQ (checked_rel _ _ _ _ _) fun _ _ =>
    Runs.bindQ (checked_rel _ _ _ _ _) fun _ _ => ?_
  refine Runs.ite (fun _ => Runs.err _) fun _ => ?_
  refine Runs.bindQ (critVelocity_rel _ (by qr) (by qr) (by qr) (by qr)) fun _ _ => ?_
  repeat rel_step

/-! ### Shock states and the initial pressure -/

theorem shockState_rel (ct : Cantera) (collect : SD.Collect) {t p t' p' : Quantity} {rt st rp sp : ℕ}
    (ht : QR rt st t t') (hp : QR rp sp p p') (x : ct.Species) (mech : String) :
    Runs (fun a b => QR reg.id reg'.id a.reflectedSpeed b.reflectedSpeed ∧ QR reg.id reg'.id a.cjSpeed b.cjSpeed ∧
        a.reflectedState = b.reflectedState ∧ a.cjState = b.cjState)
      (SD.reflectedShockState ct collect reg t p x mech) (SD.reflectedShockState ct collect reg' t' p' x mech) := by
  unfold SD.reflectedShockState
  rel_step
  rel_step
  rel_step
  rel_step
  rel_step
  rel_step
  refine Runs.bindE (Runs.refl _) fun cj => ?_
  cases cj.state with
  | none => exact Runs.err _
  | some post => exact Runs.bindE (Runs.refl _) fun _ => Runs.ok ⟨QR.mk _ _, QR.mk _ _, rfl, rfl⟩

/-- What the search sees of a shock state, in registries `r` and `s`. -/
def SR (r s : ℕ) (a b : Tube.Shock) : Prop := QR r s a.cjSpeed b.cjSpeed ∧ a.cjP = b.cjP ∧ a.reflectedP = b.reflectedP

/-- The same outcome of the search, in registries `r` and `s`. -/
def FR (r s : ℕ) (a b : Tube.Found) : Prop := QR r s a.pressure b.pressure ∧ a.dlf = b.dlf

theorem search_rel {shock shock' : Quantity → Py Tube.Shock} {dlf dlf' : Quantity → Py ℝ} {r s : ℕ}
    (hs : ∀ a b, QR r s a b → Runs (SR r s) (shock a) (shock' b)) (hd : ∀ a b, QR r s a b → Runs Eq (dlf a) (dlf' b))
    (useDlf : Bool) (state : String) (m tol : ℝ) (n : ℕ) : ∀ {p p' : Quantity} {h h' : Tube.Shock} (d e : ℝ) (k : ℕ)
      (ev ev' : List Quantity), QR r s p p' → SR r s h h' →
      Runs (FR r s) (Tube.search shock dlf useDlf state m tol n p h d e k ev)
        (Tube.search shock' dlf' useDlf state m tol n p' h' d e k ev') := by
  induction n with
  | zero => intro p p' h h' d e k ev ev' hp _; exact ⟨hp, rfl⟩
  | succ n ih =>
    intro p p' h h' d e k ev ev' hp hh
    unfold Tube.search
    refine Runs.ite (fun _ => ?_) fun _ => Runs.ok ⟨hp, rfl⟩
    rw [hh.2.2]
    rel_step
    rel_step
    refine Runs.bind (hs _ _ (by qr)) fun a b hab => ?_
    have hl : Runs Eq (Tube.loopDlf dlf useDlf a.cjSpeed) (Tube.loopDlf dlf' useDlf b.cjSpeed) := by
      unfold Tube.loopDlf
      exact Runs.ite (fun _ => hd _ _ hab.1) fun _ => Runs.refl _
    refine Runs.bindE hl fun _ => Runs.ite (fun _ => Runs.err _) fun _ => ?_
    have hsel : a.selected state = b.selected state := by
      unfold Tube.Shock.selected
      rw [hab.2.1, hab.2.2]
    rw [hsel]
    exact ih _ _ _ _ _ (QR.mk _ _) hab

theorem initialPressure_rel (ct : Cantera) (collect : SD.Collect) (a b : QIn) (t : Quantity) (x : ct.Species) (mech : String)
    (max : Quantity) (c d : QIn) (po pm : ℝ) (useDlf : Bool) (tol : ℝ) (maxIter : ℤ) (state : String)
    (r s rt st rm sm : ℕ) :
    Runs (FR reg.id reg'.id)
      (Tube.initialPressureSearch ct collect reg (a.issuedBy r) (b.issuedBy r) (t.inRegistry rt) x mech (max.inRegistry rm)
        (c.issuedBy r) (d.issuedBy r) po pm useDlf tol maxIter state)
      (Tube.initialPressureSearch ct collect reg' (a.issuedBy s) (b.issuedBy s) (t.inRegistry st) x mech (max.inRegistry sm)
        (c.issuedBy s) (d.issuedBy s) po pm useDlf tol maxIter state) := by
  unfold Tube.initialPressureSearch Tube.maxInitialPressure
  have hs : ∀ p p', QR reg.id reg'.id p p' → Runs (SR reg.id reg'.id)
      (Tube.gasShock ct collect reg (t.inRegistry rt) x mech p) (Tube.gasShock ct collect reg' (t.inRegistry st) x mech p') := by
    intro p p' hp
    unfold Tube.gasShock
    refine Runs.bind (shockState_rel (reg := reg) (reg' := reg') ct collect (QR.mk (r := rt) (s := st) t.mag t.unit) hp x mech)
      fun u v huv => ?_
    refine Runs.ok ⟨huv.2.1, ?_, ?_⟩
    · rw [huv.2.2.2]
    · rw [huv.2.2.1]
  have hd : ∀ v v', QR reg.id reg'.id v v' → Runs Eq
      (Tube.dynamicLoadFactor (a.issuedBy r) (b.issuedBy r) (.quantity v) (c.issuedBy r) (d.issuedBy r) po pm)
      (Tube.dynamicLoadFactor (a.issuedBy s) (b.issuedBy s) (.quantity v') (c.issuedBy s) (d.issuedBy s) po pm) := by
    intro v v' hv
    obtain ⟨m, u, rfl, rfl⟩ := hv.cases_eq
    exact loadFactor_rel a b (.quantity ⟨m, u, 0⟩) c d po pm r s reg.id reg'.id
  refine Runs.ite (fun _ => Runs.err _) fun _ => ?_
  dsimp only
  refine Runs.bind (hs _ _ (by qr)) fun u v huv => Runs.bindE (hd _ _ huv.1) fun f => ?_
  refine Runs.ite (fun _ => Runs.err _) fun _ => ?_
  exact search_rel hs hd _ _ _ _ _ _ _ _ _ _ (QR.mk _ _) huv

end Registries

open Registries

/-- C109, windows: the registry of each argument and the registry asked for make no difference to the safety factor; the
minimum thickness only changes the registry it lives in. -/
theorem C109_window (reg reg' : Registry) (h : SameNames reg reg') (a b c d e : QIn) (sf : NumIn) (ra rb rc rd re : ℕ) :
    Window.safetyFactor reg' (a.issuedBy ra) (b.issuedBy rb) (c.issuedBy rc) (d.issuedBy rd) (e.issuedBy re) =
      Window.safetyFactor reg a b c d e ∧
    Window.minimumThickness reg' (a.issuedBy ra) (b.issuedBy rb) sf (d.issuedBy rd) (e.issuedBy re) =
      (Window.minimumThickness reg a b sf d e).map (Quantity.inRegistry reg'.id) :=
  ⟨(Runs.eq (safetyFactor_rel h a b c d e ra rb rc rd re)).symm,
    Runs.map _ (minimumThickness_rel h a b sf d e ra rb rd re) relabel⟩

/-- C109, obstacles and run-up distance. -/
theorem C109_ddt (ct : Cantera) (reg reg' : Registry) (h : SameNames reg reg') (br : NumIn) (a b t p : QIn) (x : ct.Species)
    (mech phase : String) (ra rb rt rp : ℕ) :
    DDT.blockageDiameter reg' (a.issuedBy ra) br = (DDT.blockageDiameter reg a br).map (Quantity.inRegistry reg'.id) ∧
    DDT.blockageRatio reg' (a.issuedBy ra) (b.issuedBy rb) = DDT.blockageRatio reg a b ∧
    DDT.runUp ct reg' br (a.issuedBy ra) (t.issuedBy rt) (p.issuedBy rp) x mech phase =
      (DDT.runUp ct reg br a t p x mech phase).map (Quantity.inRegistry reg'.id) :=
  ⟨Runs.map _ (blockageDiameter_rel h a br ra) relabel, (Runs.eq (blockageRatio_rel h a b ra rb)).symm,
    Runs.map _ (runUp_rel ct h br a t p x mech phase ra rt rp) relabel⟩

/-- C109, flame and sound speed. -/
theorem C109_speeds (ct : Cantera) (reg reg' : Registry) (h : SameNames reg reg') (t p : QIn) (x : ct.Species)
    (mech phase : String) (rt rp : ℕ) :
    Thermochem.laminarFlameSpeed ct reg' (t.issuedBy rt) (p.issuedBy rp) x mech phase =
      (Thermochem.laminarFlameSpeed ct reg t p x mech phase).map (Quantity.inRegistry reg'.id) ∧
    Thermochem.eqSoundSpeed ct reg' (t.issuedBy rt) (p.issuedBy rp) x mech phase =
      (Thermochem.eqSoundSpeed ct reg t p x mech phase).map (Quantity.inRegistry reg'.id) :=
  ⟨Runs.map _ (flameSpeed_rel ct h t p x mech phase rt rp) relabel,
    Runs.map _ (soundSpeed_rel ct h t p x mech phase rt rp) relabel⟩

/-- C109, bolts. -/
theorem C109_bolt (reg reg' : Registry) (h : SameNames reg reg') (p a : QIn) (n : ℝ) (size cls : String) (b c d : QIn)
    (rp ra rb rc rd : ℕ) :
    Bolt.safetyFactors reg' (p.issuedBy rp) (a.issuedBy ra) n size cls (b.issuedBy rb) (c.issuedBy rc) (d.issuedBy rd) =
      Bolt.safetyFactors reg p a n size cls b c d ∧
    Bolt.stressAreas reg' size cls (b.issuedBy rb) (c.issuedBy rc) (d.issuedBy rd) =
      (Bolt.stressAreas reg size cls b c d).map fun o => ⟨o.plate.inRegistry reg'.id, o.screw.inRegistry reg'.id,
        o.minEngagement.inRegistry reg'.id, o.warned⟩ := by
  refine ⟨(Runs.eq (safetyFactors_rel h p a n size cls b c d rp ra rb rc rd)).symm,
    Runs.map _ (stressAreas_rel size cls b c d rb rc rd) ?_⟩
  rintro ⟨a1, a2, a3, w⟩ ⟨b1, b2, b3, w'⟩ ⟨h1, h2, h3, h4⟩
  simp only at h1 h2 h3 h4
  rw [relabel _ _ h1, relabel _ _ h2, relabel _ _ h3, h4]

/-- C109, allowable stress and flange class. -/
theorem C109_stress_and_class (u reg reg' : Registry) (h : SameNames reg reg') (p t : QIn) (material : String) (welded : Bool)
    (m : Tube.MatIn) (rp rt : ℕ) :
    Tube.maxStress reg' (t.issuedBy rt) material welded =
      (Tube.maxStress reg t material welded).map (Quantity.inRegistry reg'.id) ∧
    Flange.getClass u reg' (p.issuedBy rp) (t.issuedBy rt) m = Flange.getClass u reg p t m :=
  ⟨Runs.map _ (maxStress_rel h t material welded rt) relabel, (Runs.eq (getClass_rel u h p t m rp rt)).symm⟩

/-- C109, flange ratings: these take no registry; a rating asked for a quantity lives in the registry of that quantity. -/
theorem C109_flange_ratings (u : Registry) (cls : String) (q : Quantity) (m : Tube.MatIn) (r : ℕ) :
    Flange.getMaxPressure u cls (.quantity (q.inRegistry r)) m =
      (Flange.getMaxPressure u cls (.quantity q) m).map (Quantity.inRegistry r) ∧
    Flange.getMaxTemperature u cls (.quantity (q.inRegistry r)) m =
      (Flange.getMaxTemperature u cls (.quantity q) m).map (Quantity.inRegistry r) := by
  constructor
  · refine Runs.map (R := fun a b => b = a.inRegistry r) _ ?_ fun _ _ h => h
    unfold Flange.getMaxPressure Flange.withLimits
    refine Runs.bindE (Runs.refl _) fun lim => Runs.bindE (Runs.refl _) fun g => Runs.bindE (Runs.refl _) fun _ => ?_
    dsimp only [parseQ, ok_bind]
    refine Runs.bindE (Runs.refl _) fun _ => Runs.ite (fun _ => Runs.err _) fun _ => Runs.ok rfl
  · refine Runs.map (R := fun a b => b = a.inRegistry r) _ ?_ fun _ _ h => h
    unfold Flange.getMaxTemperature Flange.withLimits
    refine Runs.bindE (Runs.refl _) fun lim => Runs.bindE (Runs.refl _) fun g => Runs.bindE (Runs.refl _) fun _ => ?_
    dsimp only [parseQ, ok_bind]
    refine Runs.ite (fun _ => Runs.err _) fun _ => Runs.bindE (Runs.refl _) fun _ => Runs.ok rfl

/-- C109, tubes: the two functions that compute with quantities as they come give the same in every registry, if their
arguments share one; the wave speed may come from any registry. -/
theorem C109_tube (id od stress : Quantity) (sf : ℝ) (a b v c d : QIn) (poisson pm : ℝ) (r s rv sv : ℕ) :
    Tube.maxPressure (id.inRegistry s) (od.inRegistry s) (stress.inRegistry s) sf =
      (Tube.maxPressure (id.inRegistry r) (od.inRegistry r) (stress.inRegistry r) sf).map (Quantity.inRegistry s) ∧
    Tube.dynamicLoadFactor (a.issuedBy s) (b.issuedBy s) (v.issuedBy sv) (c.issuedBy s) (d.issuedBy s) poisson pm =
      Tube.dynamicLoadFactor (a.issuedBy r) (b.issuedBy r) (v.issuedBy rv) (c.issuedBy r) (d.issuedBy r) poisson pm :=
  ⟨Runs.map _ (maxPressure_rel sf (QR.mk _ _) (QR.mk _ _) (QR.mk _ _)) relabel,
    (Runs.eq (loadFactor_rel a b v c d poisson pm r s rv sv)).symm⟩

/-- C109, the largest initial pressure: temperature and pressure limit may come from any registries, the tube data from any
one; the registry asked for only decides where the result lives. -/
theorem C109_initial_pressure (ct : Cantera) (collect : SD.Collect) (reg reg' : Registry) (a b : QIn) (t : Quantity)
    (x : ct.Species) (mech : String) (max : Quantity) (c d : QIn) (poisson pm : ℝ) (useDlf : Bool) (tol : ℝ) (maxIter : ℤ)
    (state : String) (returnDlf : Bool) (r s rt st rm sm : ℕ) :
    Tube.calculateMaxInitialPressure ct collect reg' (a.issuedBy s) (b.issuedBy s) (t.inRegistry st) x mech
        (max.inRegistry sm) (c.issuedBy s) (d.issuedBy s) poisson pm useDlf tol maxIter state returnDlf =
      (Tube.calculateMaxInitialPressure ct collect reg (a.issuedBy r) (b.issuedBy r) (t.inRegistry rt) x mech
        (max.inRegistry rm) (c.issuedBy r) (d.issuedBy r) poisson pm useDlf tol maxIter state returnDlf).map
        fun o => (o.1.inRegistry reg'.id, o.2) := by
  refine Runs.map (R := fun o o' => QR reg.id reg'.id o.1 o'.1 ∧ o.2 = o'.2) _ ?_ ?_
  · unfold Tube.calculateMaxInitialPressure
    refine Runs.bind (initialPressure_rel ct collect a b t x mech max c d poisson pm useDlf tol maxIter state r s rt st rm sm)
      fun f f' h => Runs.ok ⟨h.1, ?_⟩
    rw [h.2]
  · rintro ⟨p, o⟩ ⟨p', o'⟩ ⟨h1, h2⟩
    simp only at h1 h2
    rw [relabel _ _ h1, h2]

/-- C109, shock states: the registries of temperature and pressure make no difference, both speeds are in the registry asked
for. -/
theorem C109_shock_state (ct : Cantera) (collect : SD.Collect) (reg reg' : Registry) (t p : Quantity) (x : ct.Species)
    (mech : String) (rt rp : ℕ) :
    SD.reflectedShockState ct collect reg' (t.inRegistry rt) (p.inRegistry rp) x mech =
      (SD.reflectedShockState ct collect reg t p x mech).map fun o =>
        ⟨o.reflectedSpeed.inRegistry reg'.id, o.reflectedState, o.cjSpeed.inRegistry reg'.id, o.cjState⟩ := by
  refine Runs.map _ (shockState_rel (reg := reg) (reg' := reg') ct collect (QR.mk (r := t.reg) (s := rt) t.mag t.unit)
    (QR.mk (r := p.reg) (s := rp) p.mag p.unit) x mech) ?_
  rintro ⟨a1, a2, a3, a4⟩ ⟨b1, b2, b3, b4⟩ ⟨h1, h2, h3, h4⟩
  simp only at h1 h2 h3 h4
  rw [relabel _ _ h1, relabel _ _ h2, h3, h4]

namespace Registries

/-- Steps through two runs, the second of which may meet quantities of different registries. -/
macro "relM_step" : tactic => `(tactic| first
  | with_reducible refine RunsM.bind (QM.mul (by assumption) (by assumption)) (fun _ _ _ => ?_)
  | with_reducible refine RunsM.bind (QM.div (by assumption) (by assumption)) (fun _ _ _ => ?_)
  | with_reducible refine RunsM.bind (QM.add (by assumption) (by assumption)) (fun _ _ _ => ?_)
  | with_reducible refine RunsM.bind (QM.sub (by assumption) (by assumption)) (fun _ _ _ => ?_)
  | with_reducible refine RunsM.bind (QM.scale _ (by assumption)) (fun _ _ _ => ?_)
  | with_reducible refine RunsM.bind (QM.divNum _ (by assumption)) (fun _ _ _ => ?_)
  | with_reducible refine RunsM.bind (QM.pow _ (by assumption)) (fun _ _ _ => ?_)
  | with_reducible refine RunsM.bind (QM.convert _ (by assumption)) (fun _ _ _ => ?_)
  | with_reducible exact QM.div (by assumption) (by assumption)
  | with_reducible exact QM.pow _ (by assumption))

theorem maxPressure_relM {a b c a' b' c' : Quantity} (sf : ℝ) (ha : QM r a a') (hb : QM r b b') (hc : QM r c c') :
    RunsM (QM r) (Tube.maxPressure a b c sf) (Tube.maxPressure a' b' c' sf) := by
  unfold Tube.maxPressure
  repeat relM_step

theorem critVelocity_relM {a b c d a' b' c' d' : Quantity} (po : ℝ) (ha : QM r a a') (hb : QM r b b') (hc : QM r c c')
    (hd : QM r d d') : RunsM (QM r) (Tube.critVelocity a b c d po) (Tube.critVelocity a' b' c' d' po) := by
  unfold Tube.critVelocity
  repeat relM_step

theorem checked_relM (q : Quantity) (r : ℕ) (kind : String) (pos : Bool) :
    RunsM (QM r) (Tube.checked (.quantity (q.inRegistry r)) kind pos) (Tube.checked (.quantity q) kind pos) := by
  unfold Tube.checked
  exact .inr (Runs.bind (R := Eq) (Runs.refl (checkQ q kind pos)) fun _ _ _ => ⟨rfl, rfl, rfl⟩)

theorem loadFactor_relM (a b v c d : Quantity) (po pm : ℝ) (r : ℕ) :
    RunsM Eq (Tube.dynamicLoadFactor (.quantity (a.inRegistry r)) (.quantity (b.inRegistry r)) (.quantity (v.inRegistry r))
        (.quantity (c.inRegistry r)) (.quantity (d.inRegistry r)) po pm)
      (Tube.dynamicLoadFactor (.quantity a) (.quantity b) (.quantity v) (.quantity c) (.quantity d) po pm) := by
  unfold Tube.dynamicLoadFactor
  refine RunsM.bind (checked_relM _ _ _ _) fun _ _ _ => RunsM.bind (checked_relM _ _ _ _) fun _ _ _ =>
    RunsM.bind (checked_relM _ _ _ _) fun _ _ _ => RunsM.bind (checked_relM _ _ _ _) fun _ _ _ =>
    RunsM.bind (checked_relM _ _ _ _) fun _ _ _ => ?_
  refine RunsM.ite (fun _ => .inr (Runs.err _)) fun _ => ?_
  refine RunsM.bind (critVelocity_relM _ (by assumption) (by assumption) (by assumption) (by assumption)) fun _ _ _ => ?_
  relM_step
  refine RunsM.bind (QM.convert _ (by assumption)) fun _ _ h1 => ?_
  relM_step
  refine RunsM.bind (QM.convert _ (by assumption)) fun _ _ h2 => ?_
  refine RunsM.bind (QM.convert _ (by assumption)) fun _ _ h3 => ?_
  rw [h1.2.1, h2.2.1, h3.2.1]
  exact .inr (Runs.refl _)

theorem RunsM.mismatch {α β : Type} {R : α → β → Prop} {x : Py α} {y : Py β} (h : RunsM R x y) (hx : Returns x)
    (hy : ¬ Returns y) : y = .error .registryMismatch := by
  rcases h with h | h
  · exact h
  · obtain ⟨a, rfl⟩ := hx
    cases y with
    | ok b => exact (hy ⟨b, rfl⟩).elim
    | error e => exact h.elim

end Registries

/-- C109, tubes: if the arguments come from different registries the two functions raise; it is pint's refusal to combine
quantities of different registries if the call returns with the same quantities in one registry. -/
theorem C109_tube_mixed (id od stress v modulus density : Quantity) (sf poisson pm : ℝ) (r : ℕ) :
    (¬ (od.reg = id.reg ∧ stress.reg = id.reg) → Raises (Tube.maxPressure id od stress sf) ∧
      (Returns (Tube.maxPressure (id.inRegistry r) (od.inRegistry r) (stress.inRegistry r) sf) →
        Tube.maxPressure id od stress sf = .error .registryMismatch)) ∧
    (¬ (od.reg = id.reg ∧ modulus.reg = id.reg ∧ density.reg = id.reg) →
      Raises (Tube.dynamicLoadFactor (.quantity id) (.quantity od) (.quantity v) (.quantity modulus) (.quantity density)
        poisson pm) ∧
      (Returns (Tube.dynamicLoadFactor (.quantity (id.inRegistry r)) (.quantity (od.inRegistry r))
          (.quantity (v.inRegistry r)) (.quantity (modulus.inRegistry r)) (.quantity (density.inRegistry r)) poisson pm) →
        Tube.dynamicLoadFactor (.quantity id) (.quantity od) (.quantity v) (.quantity modulus) (.quantity density)
          poisson pm = .error .registryMismatch)) := by
  have raises : ∀ {α : Type} (x : Py α), ¬ Returns x → Raises x := by
    intro α x h
    cases x with
    | ok a => exact (h ⟨a, rfl⟩).elim
    | error e => exact ⟨e, rfl⟩
  have h1 : Returns (Tube.maxPressure id od stress sf) → od.reg = id.reg ∧ stress.reg = id.reg := by
    rintro ⟨o, ho⟩
    simp only [Tube.maxPressure, bind_eq_ok] at ho
    obtain ⟨sm, h1, mean, h2, df, h3, wall, h4, w2, h5, num, h6, den, h7, h8⟩ := ho
    refine ⟨(Quantity.add_reg h1).1, ?_⟩
    rw [(Quantity.mul_reg h6).1, Quantity.scale_reg h5, Quantity.divNum_reg h4, (Quantity.sub_reg h3).2,
      (Quantity.add_reg h1).1]
  have h2 : Returns (Tube.dynamicLoadFactor (.quantity id) (.quantity od) (.quantity v) (.quantity modulus)
      (.quantity density) poisson pm) → od.reg = id.reg ∧ modulus.reg = id.reg ∧ density.reg = id.reg := by
    rintro ⟨o, ho⟩
    simp only [Tube.dynamicLoadFactor, bind_eq_ok, Tube.checked] at ho
    obtain ⟨_, ⟨_, _, h1⟩, _, ⟨_, _, h2⟩, _, ⟨_, _, h3⟩, _, ⟨_, _, h4⟩, _, ⟨_, _, h5⟩, ho⟩ := ho
    cases h1; cases h2; cases h3; cases h4; cases h5
    split at ho
    · cases ho
    simp only [bind_eq_ok, Tube.critVelocity] at ho
    obtain ⟨_, ⟨sm, h1, ra, h2, df, h3, th, h4, e2, h5, t2, h6, num, h7, d2, h8, d3, h9, r2, h10, den, h11, den', h12, q, h13,
      h14⟩, _⟩ := ho
    have hod := (Quantity.add_reg h1).1
    have hE : modulus.reg = id.reg := by
      rw [← Quantity.pow_reg h5, (Quantity.mul_reg h7).1, Quantity.pow_reg h6, Quantity.divNum_reg h4, (Quantity.sub_reg h3).2,
        hod]
    refine ⟨hod, hE, ?_⟩
    rw [← Quantity.pow_reg h8, ← Quantity.scale_reg h9, (Quantity.mul_reg h11).1, Quantity.pow_reg h10,
      Quantity.divNum_reg h2, (Quantity.add_reg h1).2, hod]
  exact ⟨fun h => ⟨raises _ fun hr => h (h1 hr), fun hr =>
      RunsM.mismatch (maxPressure_relM (r := r) (a := id.inRegistry r) (b := od.inRegistry r) (c := stress.inRegistry r) sf
        ⟨rfl, rfl, rfl⟩ ⟨rfl, rfl, rfl⟩ ⟨rfl, rfl, rfl⟩) hr fun hr => h (h1 hr)⟩,
    fun h => ⟨raises _ fun hr => h (h2 hr), fun hr =>
      RunsM.mismatch (loadFactor_relM id od v modulus density poisson pm r) hr fun hr => h (h2 hr)⟩⟩

/-- Witness: two different registries with the same names. -/
example : SameNames ⟨0, fun s => if s = "m" then some PUnit.meter else none⟩ ⟨1, fun s => if s = "m" then some PUnit.meter else none⟩ :=
  fun _ => rfl

/-- Witness for `C109_tube_mixed`: diameters of 1 m and 2 m and 1 Pa in one registry, and the stress from another one. -/
example : Returns (Tube.maxPressure ⟨1, PUnit.meter, 0⟩ ⟨2, PUnit.meter, 0⟩ ⟨1, PUnit.pascal, 0⟩ 4) ∧
    Tube.maxPressure ⟨1, PUnit.meter, 0⟩ ⟨2, PUnit.meter, 0⟩ ⟨1, PUnit.pascal, 1⟩ 4 = .error .registryMismatch := by
  have h : Returns (Tube.maxPressure ⟨1, PUnit.meter, 0⟩ ⟨2, PUnit.meter, 0⟩ ⟨1, PUnit.pascal, 0⟩ 4) := by
    simp only [Returns, Tube.maxPressure, Quantity.add, Quantity.sub, Quantity.mul, Quantity.div, Quantity.scale, Quantity.divNum,
      Quantity.sameReg, Quantity.noOffset, PUnit.meter, PUnit.pascal, PUnit.base, if_true, ok_bind]
    norm_num [PUnit.mul, PUnit.div]
  refine ⟨h, ?_⟩
  have := (C109_tube_mixed ⟨1, PUnit.meter, 0⟩ ⟨2, PUnit.meter, 0⟩ ⟨1, PUnit.pascal, 1⟩ ⟨1, PUnit.meter, 0⟩ ⟨1, PUnit.meter, 0⟩
    ⟨1, PUnit.meter, 0⟩ 4 0 0 0).1 (by simp)
  exact this.2 h

end Pypbomb
