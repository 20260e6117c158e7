/-
Properties C01-C05: `pypbomb/units.py`.
-/
import Verif.Lemmas.Pint

namespace Pypbomb.Units
open Quantity

/-! ### C01 -/

/-- C01: parsing keeps dimension and physical value and moves to the requested registry; a call
succeeds exactly for arguments that denote a quantity. -/
theorem C01_parse_keeps_meaning (x : QIn) (reg : Registry) (d : Dim) (v : ℝ) :
    Denotes reg x d v ↔
      ∃ q, parseQ x reg = .ok q ∧ q.reg = reg.id ∧ q.unit.dim = d ∧
        q.mag * q.unit.scale + q.unit.offset = v := by
  constructor
  · intro h
    obtain ⟨q, h1, h2, h3, h4⟩ := parse_any h
    exact ⟨q, h1, h4, h2, h3⟩
  · rintro ⟨q, h1, _, h3, h4⟩
    have := (denotes_of_parse h1).1
    rw [h3] at this; rw [← h4]; exact this

/-- C01: magnitude and unit of a quantity are untouched, for every kind of magnitude (number, array,
text); a pair gives that magnitude in the unit its string denotes in the target registry. -/
theorem C01_parse_same_magnitude_and_unit (m : Mag) (u : PUnit) (r : ℕ) (reg : Registry) :
    parseQuantInput (.quantity m u r) reg = .ok (.quantity m u reg.id) ∧
    ∀ (x : ℝ) (s : String) (v : Option ℝ) (pu : PUnit), reg.parse s = some pu →
      parseQuantInput (.seq [.num x, .str s v]) reg = .ok (.quantity (.num x) pu reg.id) := by
  refine ⟨rfl, ?_⟩
  intro x s v pu h
  simp [parseQuantInput, Registry.quantity, h]

/-- C01: parsing what was already parsed changes nothing, for every object. -/
theorem C01_parse_idempotent (o o' : Obj) (reg : Registry) (h : parseQuantInput o reg = .ok o') :
    parseQuantInput o' reg = .ok o' := by
  have : ∃ m u, o' = .quantity m u reg.id := by
    unfold parseQuantInput at h
    split at h
    · cases h; exact ⟨_, _, rfl⟩
    · unfold Registry.quantity at h
      split at h
      · cases h
      · cases h
      · split at h
        · cases h
        · split at h
          · cases h; exact ⟨_, _, rfl⟩
          · cases h; exact ⟨_, _, rfl⟩
          · split at h
            · cases h
            · cases h; exact ⟨_, _, rfl⟩
    · cases h
    · split at h <;> cases h
    · cases h
    · cases h
  obtain ⟨m, u, rfl⟩ := this
  rfl

/-- Not vacuous: 3 bar of registry 7 passes to registry 1. -/
example : Denotes ⟨1, fun _ => none⟩ (.quantity ⟨3, PUnit.bar, 7⟩) Dim.pressure 300000 := by
  simp [Denotes, PUnit.bar]; norm_num

/-! ### C02 -/

/-- C02: exactly quantities and two-element sequences `(magnitude, "unit")` with a unit known to the
registry are accepted. -/
theorem C02_parse_accepts_iff (o : Obj) (reg : Registry) :
    Returns (parseQuantInput o reg) ↔
      (∃ m u r, o = .quantity m u r) ∨
      (∃ a s v pu, o = .seq [a, .str s v] ∧ reg.parse s = some pu ∧ ∀ w, a ≠ .str "" w) := by
  constructor
  · rintro ⟨a, h⟩
    unfold parseQuantInput at h
    split at h
    · exact .inl ⟨_, _, _, rfl⟩
    · right
      unfold Registry.quantity at h
      split at h
      · cases h
      · cases h
      · split at h
        · cases h
        · rename_i hp
          refine ⟨_, _, _, _, rfl, hp, ?_⟩
          intro w hw
          subst hw
          simp at h
    · cases h
    · split at h <;> cases h
    · cases h
    · cases h
  · rintro (⟨m, u, r, rfl⟩ | ⟨a, s, v, pu, rfl, hp, ha⟩)
    · exact ⟨_, rfl⟩
    · simp only [Returns, parseQuantInput, Registry.quantity, hp]
      cases a with
      | num x => exact ⟨_, rfl⟩
      | arr xs => exact ⟨_, rfl⟩
      | str t w =>
        have : t ≠ "" := by rintro rfl; exact ha w rfl
        simp [this]

/-- C02: non-iterables, and sized collections whose length is not two, raise ValueError. -/
theorem C02_parse_value_error (o : Obj) (reg : Registry)
    (h : o = .plain ∨ (∃ items, o = .seq items ∧ items.length ≠ 2) ∨ ∃ n, o = .sized n ∧ n ≠ 2) :
    IsValueError (parseQuantInput o reg) := by
  rcases h with rfl | ⟨items, rfl, hl⟩ | ⟨n, rfl, hn⟩
  · exact ⟨_, rfl⟩
  · match items, hl with
    | [], _ => exact ⟨_, rfl⟩
    | [_], _ => exact ⟨_, rfl⟩
    | [_, _], hl => exact absurd rfl hl
    | _ :: _ :: _ :: _, _ => exact ⟨_, rfl⟩
  · exact ⟨"Bad quantity input", by simp [parseQuantInput, hn]⟩

/-- C02: an iterable without a length (a generator) raises TypeError, and so does a pair whose second
element is not a unit string; a pair with an unknown unit raises pint's UndefinedUnitError. -/
theorem C02_other_exceptions (reg : Registry) :
    (∃ m, parseQuantInput .unsized reg = .error (.typeError m)) ∧
    (∀ a b, (∀ s v, b ≠ .str s v) → ∃ m, parseQuantInput (.seq [a, b]) reg = .error (.typeError m)) ∧
    (∀ a s v, reg.parse s = none → parseQuantInput (.seq [a, .str s v]) reg = .error .undefinedUnit) := by
  refine ⟨⟨_, rfl⟩, ?_, ?_⟩
  · intro a b hb
    cases b with
    | num x => exact ⟨_, rfl⟩
    | arr x => exact ⟨_, rfl⟩
    | str s v => exact absurd rfl (hb s v)
  · intro a s v h
    simp only [parseQuantInput, Registry.quantity, h]

example : (Obj.seq [.num 1, .num 2, .num 3] = .seq [.num 1, .num 2, .num 3]) ∧
    ([Item.num 1, .num 2, .num 3] : List Item).length ≠ 2 := by simp
example : Returns (parseQuantInput (.seq [.num 1, .str "m" none])
    ⟨0, fun s => if s = "m" then some PUnit.meter else none⟩) := ⟨_, rfl⟩

/-! ### C03 -/

theorem kindDim_lookup (kind : String) (d : Dim) :
    KindDim kind d ↔ supportedDims.lookup kind = some d := by
  constructor
  · intro h; cases h <;> rfl
  · intro h
    simp only [supportedDims, List.lookup] at h
    repeat' split at h
    all_goals first
      | (rename_i hk; simp only [beq_iff_eq] at hk; subst hk; cases h; constructor)
      | cases h

/-- What `check_pint_quantity` should accept: a numeric quantity of the kind's dimension; arrays are
judged by their first element; the sign condition is on the value in base units. -/
def Acceptable (q : Obj) (kind : String) (pos : Bool) : Prop :=
  ∃ d u r, KindDim kind d ∧ u.dim = d ∧
    ((∃ x : ℝ, (q = .quantity (.num x) u r ∨ ∃ xs, q = .quantity (.arr (x :: xs)) u r) ∧
        (pos = true → 0 ≤ x * u.scale + u.offset)) ∨
      (pos = false ∧ ∃ v : ℝ, q = .quantity (.text (some v)) u r))

/-- C03: `check_pint_quantity` returns True exactly on the acceptable quantities. -/
theorem C03_check_accepts_iff (q : Obj) (kind : String) (pos : Bool) :
    checkPintQuantity q kind pos = .ok true ↔ Acceptable q kind pos := by
  have num (x : ℝ) (u : PUnit) (r : ℕ) :
      checkPintQuantity (.quantity (.num x) u r) kind pos = .ok true ↔
        ∃ d, KindDim kind d ∧ u.dim = d ∧ (pos = true → 0 ≤ x * u.scale + u.offset) := by
    cases hk : supportedDims.lookup kind with
    | none => simp [checkPintQuantity, hk, kindDim_lookup]
    | some d =>
      simp only [checkPintQuantity, hk, ok_bind, kindDim_lookup, Option.some.injEq]
      by_cases h1 : pos = true ∧ x * u.scale + u.offset < 0
      · rw [if_pos h1]
        constructor
        · intro h; cases h
        · rintro ⟨_, _, _, h⟩; exact absurd h1.2 (not_lt.mpr (h h1.1))
      · rw [if_neg h1]
        have h1' : pos = true → 0 ≤ x * u.scale + u.offset := fun hp =>
          not_lt.mp fun hx => h1 ⟨hp, hx⟩
        by_cases h2 : u.dim = d
        · rw [if_pos h2]
          exact ⟨fun _ => ⟨d, rfl, h2, h1'⟩, fun _ => rfl⟩
        · rw [if_neg h2]
          constructor
          · intro h; cases h
          · rintro ⟨_, rfl, h, _⟩; exact absurd h h2
  cases q with
  | quantity m u r =>
    cases m with
    | num x =>
      rw [num]
      constructor
      · rintro ⟨d, h1, h2, h3⟩; exact ⟨d, u, r, h1, h2, .inl ⟨x, .inl rfl, h3⟩⟩
      · rintro ⟨d, u', r', h1, h2, (⟨x', (h3 | ⟨xs, h3⟩), h4⟩ | ⟨_, v, h3⟩)⟩
        · cases h3; exact ⟨d, h1, h2, h4⟩
        · cases h3
        · cases h3
    | arr xs =>
      cases xs with
      | nil =>
        constructor
        · intro h; cases h
        · rintro ⟨d, u', r', h1, h2, (⟨x', (h3 | ⟨xs, h3⟩), h4⟩ | ⟨_, v, h3⟩)⟩ <;> cases h3
      | cons x xs =>
        have e : checkPintQuantity (.quantity (.arr (x :: xs)) u r) kind pos =
            checkPintQuantity (.quantity (.num x) u r) kind pos := rfl
        rw [e, num]
        constructor
        · rintro ⟨d, h1, h2, h3⟩; exact ⟨d, u, r, h1, h2, .inl ⟨x, .inr ⟨xs, rfl⟩, h3⟩⟩
        · rintro ⟨d, u', r', h1, h2, (⟨x', (h3 | ⟨ys, h3⟩), h4⟩ | ⟨_, v, h3⟩)⟩
          · cases h3
          · cases h3; exact ⟨d, h1, h2, h4⟩
          · cases h3
    | text v =>
      constructor
      · intro h
        cases hk : supportedDims.lookup kind with
        | none => simp [checkPintQuantity, hk] at h
        | some d =>
          cases v with
          | none => simp [checkPintQuantity, hk] at h
          | some v =>
            simp only [checkPintQuantity, hk, ok_bind] at h
            cases pos with
            | true => simp at h
            | false =>
              by_cases h2 : u.dim = d
              · exact ⟨d, u, r, (kindDim_lookup _ _).mpr hk, h2, .inr ⟨rfl, v, rfl⟩⟩
              · simp [h2] at h
      · rintro ⟨d, u', r', h1, h2, (⟨x', (h3 | ⟨ys, h3⟩), h4⟩ | ⟨hp, v, h3⟩)⟩
        · cases h3
        · cases h3
        · cases h3
          have hk := (kindDim_lookup _ _).mp h1
          simp [checkPintQuantity, hk, hp, h2]
  | seq _ =>
    constructor
    · intro h
      cases hk : supportedDims.lookup kind <;> simp [checkPintQuantity, hk] at h
    · rintro ⟨d, u', r', h1, h2, (⟨x', (h3 | ⟨ys, h3⟩), h4⟩ | ⟨hp, v, h3⟩)⟩ <;> cases h3
  | sized _ =>
    constructor
    · intro h
      cases hk : supportedDims.lookup kind <;> simp [checkPintQuantity, hk] at h
    · rintro ⟨d, u', r', h1, h2, (⟨x', (h3 | ⟨ys, h3⟩), h4⟩ | ⟨hp, v, h3⟩)⟩ <;> cases h3
  | unsized =>
    constructor
    · intro h
      cases hk : supportedDims.lookup kind <;> simp [checkPintQuantity, hk] at h
    · rintro ⟨d, u', r', h1, h2, (⟨x', (h3 | ⟨ys, h3⟩), h4⟩ | ⟨hp, v, h3⟩)⟩ <;> cases h3
  | plain =>
    constructor
    · intro h
      cases hk : supportedDims.lookup kind <;> simp [checkPintQuantity, hk] at h
    · rintro ⟨d, u', r', h1, h2, (⟨x', (h3 | ⟨ys, h3⟩), h4⟩ | ⟨hp, v, h3⟩)⟩ <;> cases h3

/-- C03: the check never answers False; whatever is not acceptable raises. -/
theorem C03_check_raises_otherwise (q : Obj) (kind : String) (pos : Bool)
    (h : ¬ Acceptable q kind pos) : Raises (checkPintQuantity q kind pos) := by
  have h' := mt (C03_check_accepts_iff q kind pos).mp h
  cases hc : checkPintQuantity q kind pos with
  | error e => exact ⟨e, rfl⟩
  | ok b =>
    exfalso
    cases b with
    | true => exact h' hc
    | false =>
      cases hk : supportedDims.lookup kind with
      | none =>
        rcases q with ⟨x | (_ | ⟨x, xs⟩) | (_ | v), u, r⟩ | _ | _ | _ | _ <;>
          simp [checkPintQuantity, hk] at hc
      | some d =>
        rcases q with ⟨x | (_ | ⟨x, xs⟩) | (_ | v), u, r⟩ | _ | _ | _ | _ <;>
          simp only [checkPintQuantity, hk, ok_bind, err_bind] at hc <;>
          (try split at hc) <;> (try split at hc) <;> simp at hc

/-- C03: for scalar numeric quantities, and for objects that are not quantities, the exception is
always a ValueError. -/
theorem C03_check_value_error (q : Obj) (kind : String) (pos : Bool)
    (hq : (∃ x u r, q = .quantity (.num x) u r) ∨ ∀ m u r, q ≠ .quantity m u r)
    (h : ¬ Acceptable q kind pos) : IsValueError (checkPintQuantity q kind pos) := by
  have h' := mt (C03_check_accepts_iff q kind pos).mp h
  rcases hq with ⟨x, u, r, rfl⟩ | hq
  · cases hk : supportedDims.lookup kind with
    | none => exact ⟨kind ++ " not a supported dimension type", by simp [checkPintQuantity, hk]⟩
    | some d =>
      simp only [checkPintQuantity, hk, ok_bind] at h' ⊢
      by_cases h1 : pos = true ∧ x * u.scale + u.offset < 0
      · rw [if_pos h1]; exact ⟨_, rfl⟩
      · rw [if_neg h1] at h' ⊢
        by_cases h2 : u.dim = d
        · rw [if_pos h2] at h'; exact absurd rfl h'
        · rw [if_neg h2]; exact ⟨_, rfl⟩
  · cases hk : supportedDims.lookup kind <;> cases q <;>
      first
      | exact absurd rfl (hq _ _ _)
      | (refine ⟨kind ++ " not a supported dimension type", ?_⟩; simp [checkPintQuantity, hk]; done)
      | (refine ⟨"Non-pint quantity", ?_⟩; simp [checkPintQuantity, hk])

example : Acceptable (.quantity (.num 5) PUnit.bar 0) "pressure" true :=
  ⟨_, PUnit.bar, 0, .pressure, rfl, .inl ⟨5, .inl rfl, fun _ => by norm_num [PUnit.bar]⟩⟩
example : ¬ Acceptable (.quantity (.num (-5)) PUnit.bar 0) "pressure" true := by
  rintro ⟨d, u', r', h1, h2, (⟨x', (h3 | ⟨ys, h3⟩), h4⟩ | ⟨hp, v, h3⟩)⟩
  · cases h3; have := h4 rfl; norm_num [PUnit.bar] at this
  · cases h3
  · cases h3

/-! ### C04 -/

/-- C04: the outcome depends only on dimension and physical value, not on the unit or registry. -/
theorem C04_check_unit_independent (x y : ℝ) (u w : PUnit) (r s : ℕ) (kind : String) (pos : Bool)
    (hd : u.dim = w.dim) (hv : x * u.scale + u.offset = y * w.scale + w.offset) :
    checkPintQuantity (.quantity (.num x) u r) kind pos =
      checkPintQuantity (.quantity (.num y) w s) kind pos := by
  cases hk : supportedDims.lookup kind with
  | none => simp only [checkPintQuantity, hk, ok_bind, err_bind]
  | some d => simp only [checkPintQuantity, hk, ok_bind, hd, hv]

/-- -10 degC and 263.15 K are such a pair. -/
example : PUnit.degC.dim = PUnit.kelvin.dim ∧
    (-10 : ℝ) * PUnit.degC.scale + PUnit.degC.offset =
      263.15 * PUnit.kelvin.scale + PUnit.kelvin.offset := by
  constructor
  · rfl
  · norm_num [PUnit.degC, PUnit.kelvin, PUnit.base]

/-! ### C05 -/

/-- C05 is false of the code: an array [1, -1] m passes the positivity check. -/
theorem C05_array_check_violated :
    ∃ (xs : List ℝ) (u : PUnit), checkPintQuantity (.quantity (.arr xs) u 0) "length" true = .ok true ∧
      ∃ x ∈ xs, x * u.scale + u.offset < 0 := by
  refine ⟨[1, -1], PUnit.meter, ?_, -1, by simp, ?_⟩
  · rw [C03_check_accepts_iff]
    exact ⟨_, PUnit.meter, 0, .length, rfl,
      .inl ⟨1, .inr ⟨[-1], rfl⟩, fun _ => by norm_num [PUnit.meter, PUnit.base]⟩⟩
  · norm_num [PUnit.meter, PUnit.base]

/-- C05, exactly: the check of an array is the check of its first element. -/
theorem C05_array_check_is_first (x : ℝ) (xs : List ℝ) (u : PUnit) (r : ℕ) (kind : String) (pos : Bool) :
    checkPintQuantity (.quantity (.arr (x :: xs)) u r) kind pos =
      checkPintQuantity (.quantity (.num x) u r) kind pos := by
  unfold checkPintQuantity
  rfl

/-- C05, the part that holds: the first element is protected, and so is the whole array when its
first element is the smallest.  Missing: the other elements of unsorted arrays (false, see above). -/
theorem C05_array_check_partial (x : ℝ) (xs : List ℝ) (u : PUnit) (r : ℕ) (kind : String)
    (h : checkPintQuantity (.quantity (.arr (x :: xs)) u r) kind true = .ok true)
    (hmin : ∀ y ∈ xs, x ≤ y) : ∀ y ∈ x :: xs, 0 ≤ y * u.scale + u.offset := by
  have hx : 0 ≤ x * u.scale + u.offset := by
    rw [C03_check_accepts_iff] at h
    obtain ⟨d, u', r', h1, h2, (⟨x', (h3 | ⟨ys, h3⟩), h4⟩ | ⟨hp, v, h3⟩)⟩ := h
    · cases h3
    · cases h3; exact h4 rfl
    · cases h3
  intro y hy
  rcases List.mem_cons.mp hy with rfl | hy
  · exact hx
  · have := mul_le_mul_of_nonneg_right (hmin y hy) u.pos.le
    linarith

example : checkPintQuantity (.quantity (.arr [1, 2]) PUnit.meter 0) "length" true = .ok true ∧
    ∀ y ∈ [(2 : ℝ)], (1 : ℝ) ≤ y := by
  constructor
  · rw [C03_check_accepts_iff]
    exact ⟨_, PUnit.meter, 0, .length, rfl,
      .inl ⟨1, .inr ⟨[2], rfl⟩, fun _ => by norm_num [PUnit.meter, PUnit.base]⟩⟩
  · simp

end Pypbomb.Units
