/-
Properties C106-C108: what the exceptions and warnings say.
-/
import Verif.Lemmas.DimText
import Verif.Props.Materials
import Verif.Props.Units
import Verif.Props.Flange
import Verif.Props.Bolt
import Verif.Props.TubeTables
import Verif.Model.SD

namespace Pypbomb.Messages
open Materials (Contains contains_infix)

/-! ### C106: refused names are named -/

theorem contains_left {a b s : String} (h : Contains a s) : Contains (a ++ b) s := by
  rw [contains_infix] at h ⊢
  rw [String.toList_append]
  exact h.trans (List.prefix_append _ _).isInfix

theorem contains_right {a b s : String} (h : Contains b s) : Contains (a ++ b) s := by
  rw [contains_infix] at h ⊢
  rw [String.toList_append]
  exact h.trans (List.suffix_append _ _).isInfix

theorem contains_self (s : String) : Contains s s := ⟨[], [], by simp⟩

theorem format_text {args : List String} {t : List Char} (h : ∀ c ∈ t, c ≠ '{' ∧ c ≠ '}') (cs : List Char) (k : ℕ) :
    formatAux args (t ++ cs) none k = (formatAux args cs none k).map (t ++ ·) := by
  induction t with
  | nil => simp
  | cons a t ih =>
    obtain ⟨h1, h2⟩ := h a (List.mem_cons_self ..)
    have ih := ih fun c hc => h c (List.mem_cons_of_mem _ hc)
    simp only [List.cons_append, formatAux, if_neg h1, if_neg h2, ih, Option.map_map]
    rfl

theorem format_field {args : List String} {a : String} {k : ℕ} (h : args[k]? = some a) (cs : List Char) :
    formatAux args (chars!"{:s}" ++ cs) none k = (formatAux args cs none (k + 1)).map (a.toList ++ ·) := by
  have hf : formatField (chars!":s") k = some (k, k + 1) := by
    simp [formatField]
  have e : formatAux args (chars!"{:s}" ++ cs) none k =
      (match formatField (chars!":s") k with
        | none => none
        | some (i, k') =>
          match args[i]? with
          | none => none
          | some a => (formatAux args cs none k').map (a.toList ++ ·)) := by
    simp [formatAux]
    rfl
  rw [e, hf]
  simp only [h]

theorem percent_text {arg : String} {t : List Char} (h : '%' ∉ t) {c : Char} (cs : List Char) :
    percentAux arg (t ++ c :: cs) = (percentAux arg (c :: cs)).map (t ++ ·) := by
  induction t with
  | nil => simp
  | cons a t ih =>
    rw [List.mem_cons, not_or] at h
    have ih := ih h.2
    cases t with
    | nil =>
      simp only [List.cons_append, List.nil_append, percentAux, if_neg (Ne.symm h.1)]
    | cons b t =>
      show percentAux arg (a :: b :: (t ++ c :: cs)) = _
      have ih' : percentAux arg (b :: (t ++ c :: cs)) = _ := ih
      rw [percentAux, if_neg (Ne.symm h.1), ih', Option.map_map]
      rfl

theorem percent_plain {arg : String} {t : List Char} (h : '%' ∉ t) : percentAux arg t = some t := by
  induction t with
  | nil => rfl
  | cons a t ih =>
    rw [List.mem_cons, not_or] at h
    have ih := ih h.2
    cases t with
    | nil => simp only [percentAux, if_neg (Ne.symm h.1)]
    | cons b t => rw [percentAux, if_neg (Ne.symm h.1), ih]; rfl

theorem join3 {a b c : String} {x z : List Char} (h1 : a.toList = x) (h2 : c.toList = z) :
    String.ofList (x ++ (b.toList ++ z)) = a ++ b ++ c := by
  apply String.toList_injective; simp [← h1, ← h2]

theorem join5 {a b c d e : String} {x y z : List Char} (h1 : a.toList = x) (h2 : c.toList = y) (h3 : e.toList = z) :
    String.ofList (x ++ (b.toList ++ (y ++ (d.toList ++ (z ++ []))))) = a ++ b ++ c ++ d ++ e := by
  apply String.toList_injective; simp [← h1, ← h2, ← h3]

theorem pyPercent_one {arg : String} {t t' : List Char} (h : '%' ∉ t) (h' : '%' ∉ t') :
    pyPercent (t ++ '%' :: 's' :: t') arg = .ok (String.ofList (t ++ (arg.toList ++ t'))) := by
  have e2 : percentAux arg ('%' :: 's' :: t') = some (arg.toList ++ t') := by
    simp [percentAux, percent_plain h']
  unfold pyPercent
  rw [percent_text h, e2]
  rfl

theorem pyFormat_two {a b : String} {t t' t'' : List Char} (h : ∀ c ∈ t, c ≠ '{' ∧ c ≠ '}') (h' : ∀ c ∈ t', c ≠ '{' ∧ c ≠ '}')
    (h'' : ∀ c ∈ t'', c ≠ '{' ∧ c ≠ '}') :
    pyFormat (t ++ (chars!"{:s}" ++ (t' ++ (chars!"{:s}" ++ (t'' ++ []))))) [a, b] =
      .ok (String.ofList (t ++ (a.toList ++ (t' ++ (b.toList ++ (t'' ++ [])))))) := by
  unfold pyFormat
  rw [format_text h, format_field (a := a) rfl, format_text h', format_field (a := b) rfl, format_text h'']
  rfl

theorem text1 : "Invalid pipe size: ".toList = (chars!"Invalid pipe size: ") := by decide +kernel
theorem text2 : ". See Tube.available_pipe_sizes.".toList = (chars!". See Tube.available_pipe_sizes.") := by decide +kernel
theorem text3 : "Schedule ".toList = (chars!"Schedule ") := by decide +kernel
theorem text4 : " invalid for pipe size ".toList = (chars!" invalid for pipe size ") := by decide +kernel
theorem text5 : ". See Tube.available_pipe_sizes and Tube.get_available_pipe_schedules.".toList =
    (chars!". See Tube.available_pipe_sizes and Tube.get_available_pipe_schedules.") := by decide +kernel

/-- The two Tube messages are what Python's `%` and `str.format` make of the templates in the source. -/
theorem C106_texts (size schedule : String) :
    pyPercent (chars!"Invalid pipe size: %s. See Tube.available_pipe_sizes.") size = .ok (Tube.sizeMessage size) ∧
    pyFormat (chars!"Schedule {:s} invalid for pipe size {:s}. See Tube.available_pipe_sizes and Tube.get_available_pipe_schedules.")
      [schedule, size] = .ok (Tube.scheduleMessage schedule size) :=
  ⟨(pyPercent_one (t := chars!"Invalid pipe size: ") (t' := chars!". See Tube.available_pipe_sizes.") (by decide)
      (by decide)).trans (congrArg (Except.ok (ε := PyErr)) (join3 text1 text2)),
    (pyFormat_two (t := chars!"Schedule ") (t' := chars!" invalid for pipe size ")
      (t'' := chars!". See Tube.available_pipe_sizes and Tube.get_available_pipe_schedules.") (by decide) (by decide)
      (by decide)).trans (congrArg (Except.ok (ε := PyErr)) (join5 text3 text4 text5))⟩

/-- C106: whenever the list of schedules is refused, it is by a ValueError naming the size. -/
theorem C106_schedules (size : String) {e : PyErr} (h : Tube.availableSchedules size = .error e) :
    ∃ msg, e = .valueError msg ∧ Contains msg size := by
  unfold Tube.availableSchedules at h
  split at h
  · simp only [Except.error.injEq] at h
    exact ⟨_, h.symm, contains_left (contains_right (contains_self _))⟩
  · simp at h

/-- C106: whenever dimensions are refused, it is by a ValueError naming the size, and also naming the schedule when the size is
known. -/
theorem C106_dimensions (reg : Registry) (size schedule : String) {e : PyErr} (h : Tube.dimensions reg size schedule = .error e) :
    ∃ msg, e = .valueError msg ∧ Contains msg size ∧ ((∃ cells, (size, cells) ∈ Data.pipeRows) → Contains msg schedule) := by
  obtain ⟨c1, c2⟩ := Tube.C27_dimensions (reg := reg) (size := size) (schedule := schedule)
  obtain ⟨-, a2, -⟩ := Tube.C27_available_schedules (size := size)
  have hv : ∃ msg, e = .valueError msg := by
    by_cases hne : schedule = "OD" ∨ ∀ w, ¬ Tube.PipeCell size schedule w
    · obtain ⟨m, em⟩ := c2 hne
      rw [em] at h
      exact ⟨m, by simpa using h.symm⟩
    · exfalso
      rw [not_or, not_forall] at hne
      obtain ⟨h1, w, h2⟩ := hne
      rw [not_not] at h2
      have h3 := h2
      obtain ⟨cells, hm, -⟩ := h3
      obtain ⟨od, hod⟩ := Tube.pipe_od _ hm
      rw [c1 od w ⟨cells, hm, 0, rfl, hod⟩ h2 h1] at h
      simp at h
  unfold Tube.dimensions at h
  cases hs : Tube.availableSchedules size with
  | error e' =>
    rw [hs] at h
    simp only [err_bind, Except.error.injEq] at h
    subst h
    obtain ⟨msg, rfl, hc⟩ := C106_schedules size hs
    refine ⟨msg, rfl, hc, fun hex => ?_⟩
    obtain ⟨a, ha⟩ := a2 hex
    rw [ha] at hs
    simp at hs
  | ok av =>
    rw [hs] at h
    simp only [ok_bind] at h
    split at h
    · simp only [Except.error.injEq] at h
      refine ⟨_, h.symm, ?_, fun _ => ?_⟩
      · exact contains_left (contains_right (contains_self _))
      · exact contains_left (contains_left (contains_left (contains_right (contains_self _))))
    · obtain ⟨msg, rfl⟩ := hv
      split at h <;> simp at h

/-- C106: a material property is refused by a ValueError naming the material (or, C41, by an IndexError for an object that is no
string but reads like a material). -/
theorem C106_material (reg : Registry) (m : Tube.MatIn) (e : PyErr)
    (h : Tube.elasticModulus reg m = .error e ∨ Tube.density reg m = .error e ∨ Tube.poisson m = .error e) :
    (∃ msg, e = .valueError msg ∧ Contains msg m.toStr) ∨ e = .indexError ∧ ∀ s, m ≠ .str s := by
  have key : ∀ {α : Type} (f : String × String × Nat × Nat × Nat → α),
      (do Tube.checkMaterial m; let r ← Tube.materialRow m; (.ok (f r) : Py α)) = .error e →
      (∃ msg, e = .valueError msg ∧ Contains msg m.toStr) ∨ e = .indexError ∧ ∀ s, m ≠ .str s := by
    intro α f h
    unfold Tube.checkMaterial at h
    split at h
    · rename_i hm
      simp only [ok_bind] at h
      right
      cases hr : Tube.materialRow m with
      | ok r => rw [hr] at h; simp at h
      | error e' =>
        rw [hr] at h
        simp only [err_bind, Except.error.injEq] at h
        subst h
        unfold Tube.materialRow at hr
        split at hr
        · rename_i hf
          simp only [Except.error.injEq] at hr
          refine ⟨hr.symm, ?_⟩
          rintro s rfl
          obtain ⟨r, h1, h2⟩ := List.mem_map.mp hm
          exact (List.filter_eq_nil_iff.mp hf) r h1 (by simpa [Tube.MatIn.toStr] using h2)
        · simp at hr
    · simp only [err_bind, Except.error.injEq] at h
      exact Or.inl ⟨_, h.symm, contains_left (contains_right (contains_self _))⟩
  rcases h with h | h | h
  · exact key _ h
  · exact key _ h
  · exact key _ h

/-- C106: a material that `Flange` does not know is refused by all three of its functions with a ValueError naming it, whatever
the class and, for the last two, the other argument. -/
theorem C106_flange_material (u reg : Registry) (s cls : String) (hs : s ∉ Data.materialRows.map (·.1)) :
    ∃ msg, Contains msg s ∧
      (∀ x, Flange.getMaxPressure u cls x (.str s) = .error (.valueError msg)) ∧
      (∀ x, Flange.getMaxTemperature u cls x (.str s) = .error (.valueError msg)) ∧
      (∀ (p t : Quantity), 0 ≤ p.phys → p.unit.dim = Dim.pressure → 0 ≤ t.phys → t.unit.dim = Dim.temperature →
        Flange.getClass u reg (.quantity p) (.quantity t) (.str s) = .error (.valueError msg)) := by
  have hc : Flange.checkMaterial (.str s) =
      .error (.valueError (s ++ " not found in materials. Try Flange.available_materials")) := by
    simp only [Flange.checkMaterial, if_neg hs]
  refine ⟨s ++ " not found in materials. Try Flange.available_materials", contains_left (contains_self _), ?_, ?_, ?_⟩
  · intro x
    simp only [Flange.getMaxPressure, Flange.withLimits_eq, Flange.lookupGroup, hc, err_bind]
  · intro x
    simp only [Flange.getMaxTemperature, Flange.withLimits_eq, Flange.lookupGroup, hc, err_bind]
  · intro p t hp hpd ht htd
    have lp : supportedDims.lookup "pressure" = some Dim.pressure := rfl
    have lt : supportedDims.lookup "temperature" = some Dim.temperature := rfl
    have c1 : checkQ ⟨p.mag, p.unit, reg.id⟩ "pressure" true = .ok () := by
      rw [checkQ_eq _ _ _ lp, if_neg (by simpa [Quantity.phys] using hp), if_pos hpd]
    have c2 : checkQ ⟨t.mag, t.unit, reg.id⟩ "temperature" true = .ok () := by
      rw [checkQ_eq _ _ _ lt, if_neg (by simpa [Quantity.phys] using ht), if_pos htd]
    simp only [Flange.getClass, Flange.withLimits_eq, parseQ, ok_bind, c1, c2, Flange.lookupGroup, hc, err_bind]

/-- C106: `get_thread_property` names the property or the size it does not know; for an unknown property it lists every property
of the table in quotes. -/
theorem C106_thread_property (reg : Registry) (prop size cls : String) :
    (Bolt.LooksExternal cls → prop ∉ Bolt.external.cols →
      ∃ msg, Bolt.getThreadProperty reg prop size cls = .error (.keyError msg) ∧ Contains msg ("'" ++ prop ++ "'") ∧
        ∀ c ∈ Bolt.external.cols, Contains msg ("'" ++ c ++ "'")) ∧
    (Bolt.LooksInternal cls → prop ∉ Bolt.internal.cols →
      ∃ msg, Bolt.getThreadProperty reg prop size cls = .error (.keyError msg) ∧ Contains msg ("'" ++ prop ++ "'") ∧
        ∀ c ∈ Bolt.internal.cols, Contains msg ("'" ++ c ++ "'")) ∧
    (Bolt.LooksExternal cls → prop ∈ Bolt.external.cols → size ∉ Bolt.external.rows.map (·.1) →
      ∃ msg, Bolt.getThreadProperty reg prop size cls = .error (.keyError msg) ∧ Contains msg ("'" ++ size ++ "'")) ∧
    (Bolt.LooksInternal cls → prop ∈ Bolt.internal.cols → size ∉ Bolt.internal.rows.map (·.1) →
      ∃ msg, Bolt.getThreadProperty reg prop size cls = .error (.keyError msg) ∧ Contains msg ("'" ++ size ++ "'")) := by
  have named : ∀ (pre s post : String), Contains (pre ++ "'" ++ s ++ ("'" ++ post)) ("'" ++ s ++ "'") := by
    intro pre s post
    rw [contains_infix]
    refine ⟨pre.toList, post.toList, ?_⟩
    simp
  have l1 : ∀ c ∈ Bolt.external.cols, Contains ("'" ++ String.intercalate "', '" Bolt.external.cols ++ "'") ("'" ++ c ++ "'") := by
    have : ∀ c ∈ Bolt.external.cols, pyIn ("'" ++ c ++ "'") ("'" ++ String.intercalate "', '" Bolt.external.cols ++ "'") = true := by
      decide +kernel
    intro c hc
    exact Materials.contains_iff.mp (this c hc)
  have l2 : ∀ c ∈ Bolt.internal.cols, Contains ("'" ++ String.intercalate "', '" Bolt.internal.cols ++ "'") ("'" ++ c ++ "'") := by
    have : ∀ c ∈ Bolt.internal.cols, pyIn ("'" ++ c ++ "'") ("'" ++ String.intercalate "', '" Bolt.internal.cols ++ "'") = true := by
      decide +kernel
    intro c hc
    exact Materials.contains_iff.mp (this c hc)
  have e1 : ∀ tb : Bolt.Table, "\nThread property '" ++ prop ++ "' not found. Available specs: '" ++
      String.intercalate "', '" tb.cols ++ "'" =
      ("\nThread property " ++ "'" ++ prop ++ ("'" ++ " not found. Available specs: ")) ++
        ("'" ++ String.intercalate "', '" tb.cols ++ "'") := by
    intro tb
    apply String.toList_injective
    simp
  have e2 : "\nThread size '" ++ size ++ "' not found" = "\nThread size " ++ "'" ++ size ++ ("'" ++ " not found") := by
    apply String.toList_injective
    simp
  refine ⟨fun hc hp => ?_, fun hc hp => ?_, fun hc hp hs => ?_, fun hc hp hs => ?_⟩
  · rw [Bolt.getThreadProperty_ext hc, Bolt.fromTable, if_pos hp, e1]
    exact ⟨_, rfl, contains_left (named _ _ _), fun c h => contains_right (l1 c h)⟩
  · rw [Bolt.getThreadProperty_int hc, Bolt.fromTable, if_pos hp, e1]
    exact ⟨_, rfl, contains_left (named _ _ _), fun c h => contains_right (l2 c h)⟩
  · rw [Bolt.getThreadProperty_ext hc, Bolt.fromTable, if_neg (not_not.mpr hp), if_pos hs, e2]
    exact ⟨_, rfl, named _ _ _⟩
  · rw [Bolt.getThreadProperty_int hc, Bolt.fromTable, if_neg (not_not.mpr hp), if_pos hs, e2]
    exact ⟨_, rfl, named _ _ _⟩

/-- C106: a class that the material's group does not list is refused with a ValueError naming the class and the group, whatever
the temperature or pressure. -/
theorem C106_flange_class (u : Registry) {material cls : String} {row : String × String × Nat × Nat × Nat}
    (hr : row ∈ Data.materialRows) (hm : row.1 = material) (hT : cls ≠ "Temperature")
    (hcl : ∀ cv, ¬ Flange.IsCurve material cls cv) :
    ∃ msg, Contains msg cls ∧ Contains msg ("group " ++ row.2.1) ∧
      (∀ x, Flange.getMaxPressure u cls x (.str material) = .error (.valueError msg)) ∧
      ∀ x, Flange.getMaxTemperature u cls x (.str material) = .error (.valueError msg) := by
  obtain ⟨tb, ht⟩ := Flange.table_exists ⟨row, hr, hm⟩
  have hg : tb.1 = row.2.1 := by
    obtain ⟨-, row', hr', hm', e⟩ := ht
    have nodup : (Data.materialRows.map (·.1)).Nodup := by decide +kernel
    have := List.inj_on_of_nodup_map nodup hr' hr (by rw [hm', hm])
    rw [e, this]
  have hck : Flange.checkClass cls (tb.1, Flange.frameOf tb.2) =
      .error (.valueError (cls ++ " not found in group " ++ tb.1 ++ ".")) := by
    unfold Flange.checkClass
    rw [if_neg]
    rw [List.mem_cons, not_or]
    refine ⟨hT, ?_⟩
    intro hin
    obtain ⟨i, hi⟩ := List.mem_iff_getElem?.mp (show cls ∈ tb.2.1 from hin)
    exact hcl _ (ht.curve hi)
  refine ⟨cls ++ " not found in group " ++ tb.1 ++ ".", ?_, ?_, ?_, ?_⟩
  · exact contains_left (contains_left (contains_left (contains_self _)))
  · rw [contains_infix, hg]
    refine ⟨(cls ++ " not found in ").toList, ".".toList, ?_⟩
    simp
  · intro x
    simp only [Flange.getMaxPressure, Flange.withLimits_eq, Flange.lookupGroup_eq ht, ok_bind, hck, err_bind]
  · intro x
    simp only [Flange.getMaxTemperature, Flange.withLimits_eq, Flange.lookupGroup_eq ht, ok_bind, hck, err_bind]

/-- Concrete refusals: each hypothesis above is met. -/
example : "2.222" ∉ Data.pipeRows.map (·.1) ∧ "999" ∉ Data.materialRows.map (·.1) ∧ "pitch" ∉ Bolt.external.cols ∧
    Bolt.LooksExternal "2A" ∧ "1/5-3" ∉ Bolt.external.rows.map (·.1) := by
  refine ⟨by decide +kernel, by decide +kernel, by decide +kernel, ⟨by decide +kernel, Or.inl (by decide +kernel)⟩,
    by decide +kernel⟩

/-! ### C107: what a wrong dimension is told -/

/-- Dimensions with integer exponents, as lengths, areas, pressures, ... have. -/
def WholeExponents (d : Dim) : Prop :=
  ∃ a b c e f g h : ℤ, d = ⟨a, b, c, e, f, g, h⟩

theorem integral_of_whole {d : Dim} (h : WholeExponents d) : DimText.Integral d := by
  obtain ⟨a, b, c, e, f, g, i, rfl⟩ := h
  intro x hx
  simp only [Dim.items, List.mem_cons, List.not_mem_nil, or_false] at hx
  rcases hx with rfl | rfl | rfl | rfl | rfl | rfl | rfl <;> simp

theorem kind_whole {kind : String} {d : Dim} (h : KindDim kind d) : WholeExponents d := by
  cases h
  · exact ⟨1, 0, 0, 0, 0, 0, 0, by simp⟩
  · exact ⟨2, 0, 0, 0, 0, 0, 0, by simp⟩
  · exact ⟨3, 0, 0, 0, 0, 0, 0, by simp⟩
  · exact ⟨0, 0, 0, 1, 0, 0, 0, by simp⟩
  · exact ⟨-1, 1, -2, 0, 0, 0, 0, by simp⟩
  · exact ⟨1, 0, -1, 0, 0, 0, 0, by simp⟩
  · exact ⟨-3, 1, 0, 0, 0, 0, 0, by simp⟩

/-- C107: pint's texts of two dimensions are equal exactly when the dimensions are, so that comparing texts, as
`check_pint_quantity` does, compares dimensions. -/
theorem C107_text_decides {d d' : Dim} (h : WholeExponents d) (h' : WholeExponents d') :
    dimText d = dimText d' ↔ d = d' :=
  ⟨fun e => DimText.plain_inj (integral_of_whole h) (integral_of_whole h') (by rw [e]), fun e => by rw [e]⟩

/-- C107: the texts of the seven supported dimensions. -/
theorem C107_supported_texts :
    ∀ k ∈ [("length", "[length]"), ("area", "[length] ** 2"), ("volume", "[length] ** 3"), ("temperature", "[temperature]"),
      ("pressure", "[mass] / [length] / [time] ** 2"), ("velocity", "[length] / [time]"), ("density", "[mass] / [length] ** 3")],
      ∃ d, KindDim k.1 d ∧ dimText d = k.2 := by
  intro k hk
  simp only [List.mem_cons, List.not_mem_nil, or_false] at hk
  rcases hk with rfl | rfl | rfl | rfl | rfl | rfl | rfl
  · exact ⟨_, .length, by decide +kernel⟩
  · exact ⟨_, .area, by decide +kernel⟩
  · exact ⟨_, .volume, by decide +kernel⟩
  · exact ⟨_, .temperature, by decide +kernel⟩
  · exact ⟨_, .pressure, by decide +kernel⟩
  · exact ⟨_, .velocity, by decide +kernel⟩
  · exact ⟨_, .density, by decide +kernel⟩

/-- C107: a number of the wrong dimension (and, if asked for, not negative) is refused with the ValueError "X is not Y", where X and
Y are the texts of its own and of the requested dimension without brackets; X and Y differ. -/
theorem C107_message {kind : String} {d : Dim} (hk : KindDim kind d) (x : ℝ) (u : PUnit) (r : ℕ) (pos : Bool)
    (hp : pos = true → 0 ≤ x * u.scale + u.offset) (hd : u.dim ≠ d) :
    ∃ X Y : String, checkPintQuantity (.quantity (.num x) u r) kind pos = .error (.valueError (X ++ " is not " ++ Y)) ∧
      X.toList = (dimText u.dim).toList.filter (fun c => c ≠ '[' ∧ c ≠ ']') ∧
      Y.toList = (dimText d).toList.filter (fun c => c ≠ '[' ∧ c ≠ ']') ∧
      (WholeExponents u.dim → X ≠ Y) := by
  refine ⟨dropBrackets (dimText u.dim), dropBrackets (dimText d), ?_, DimText.drop_toList _, DimText.drop_toList _, ?_⟩
  · have hl := (Units.kindDim_lookup _ _).mp hk
    simp only [checkPintQuantity, hl, ok_bind]
    rw [if_neg, if_neg hd]
    · rfl
    · rintro ⟨a, b⟩
      exact absurd (hp a) (not_le.mpr b)
  · intro h e
    exact hd (DimText.plain_inj (integral_of_whole h) (integral_of_whole (kind_whole hk)) e)

/-- A length in inches where a pressure is wanted. -/
example : ∃ X Y : String, checkPintQuantity (.quantity (.num 3) PUnit.inch 0) "pressure" true =
    .error (.valueError (X ++ " is not " ++ Y)) ∧ X = "length" ∧ Y = "mass / length / time ** 2" := by
  obtain ⟨X, Y, h, hX, hY, -⟩ := C107_message KindDim.pressure 3 PUnit.inch 0 true
    (fun _ => by norm_num [PUnit.inch]) (by simp [PUnit.inch, Dim.length])
  refine ⟨X, Y, h, ?_, ?_⟩
  · apply String.toList_injective
    rw [hX]
    show ((dimText Dim.length).toList.filter _) = _
    decide +kernel
  · apply String.toList_injective
    rw [hY]
    decide +kernel

/-! ### C108: what the solvers' warnings say -/

/-- C108: `cj_state`'s warning names the iteration limit. -/
theorem C108_cj_state_partial (n : ℤ) :
    ∃ msg, SD.cjWarning n = .ok msg ∧ Contains msg (toString n) ∧ Contains msg "No convergence" := by
  refine ⟨String.ofList (chars!"No convergence within " ++ ((toString n).toList ++ (chars!" iterations"))), rfl, ?_, ?_⟩
  · exact ⟨(chars!"No convergence within "), (chars!" iterations"), by simp⟩
  · exact ⟨[], (chars!" within ") ++ ((toString n).toList ++ (chars!" iterations")), by simp⟩

/-- C108: `get_eq_state`'s warning names the number of iterations, and instead of the particle speed it shows the format field. -/
theorem C108_get_eq_state_partial (speed : String) (n : ℤ) :
    ∃ msg, SD.rsWarning speed n = .ok msg ∧ Contains msg (toString n) ∧ Contains msg "U = {0:.2f}" := by
  refine ⟨"Calculation did not converge for U = {0:.2f} " ++
    String.ofList (chars!"after " ++ ((toString n).toList ++ (chars!" iterations"))), rfl, ?_, ?_⟩
  · apply contains_right
    exact ⟨(chars!"after "), (chars!" iterations"), by simp⟩
  · apply contains_left
    exact Materials.contains_iff.mp (by decide +kernel)

/-- C108: the warning does not depend on the particle speed at all, so it cannot tell it. -/
theorem C108_violated (n : ℤ) : ∃ msg, ∀ speed, SD.rsWarning speed n = .ok msg :=
  ⟨_, fun _ => rfl⟩

end Pypbomb.Messages
