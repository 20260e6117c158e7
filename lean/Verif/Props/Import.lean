/-
C74-C76: loading the data files when the package is imported.
-/
import Mathlib.Tactic.NormNum
import Mathlib.Tactic.Push
import Verif.Spec
import Verif.Model.Import
import Verif.Model.Bolt
import Verif.Props.Materials
import Verif.Lemmas.Flange

namespace Pypbomb.Import
open Csv

/-! ### Specification -/

/-- The content of a cell. -/
inductive Val where
  | num (q : ℚ)
  | str (s : String)
  | nan
  deriving DecidableEq

/-- What a loaded cell contains. -/
def val : Cell → Val
  | .num q _ => .num q
  | .str s => .str s
  | .nan => .nan

/-- A loaded frame has these column names and these contents. -/
def Holds (x : Py Frame) (header : List String) (rows : List (List Val)) : Prop :=
  ∃ f, x = .ok f ∧ f.header = header ∧ f.rows.map (·.map val) = rows

/-- `n` in units of `10^-d`. -/
def dec (d : ℕ) (n : ℤ) : Val := .num ((n : ℚ) / (10 : ℚ) ^ d)

/-- The same for a cell that may be empty. -/
def decOpt (d : ℕ) : Option ℕ → Val
  | some n => dec d n
  | none => .nan

/-- Decides `Holds`. -/
def holdsB (x : Py Frame) (header : List String) (rows : List (List Val)) : Bool :=
  match x with
  | .ok f => decide (f.header = header) && decide (f.rows.map (·.map val) = rows)
  | .error _ => false

theorem holds_of {x : Py Frame} {header : List String} {rows : List (List Val)}
    (h : holdsB x header rows = true) : Holds x header rows := by
  unfold holdsB at h
  split at h
  · rename_i f
    simp only [Bool.and_eq_true, decide_eq_true_eq] at h
    exact ⟨f, rfl, h.1, h.2⟩
  · cases h

/-- The shipped directory as a function. -/
def shippedDisk : Disk := fun n => shipped.lookup n

/-! ### C74: the tables used by the API are the shipped files -/

/-- C74: the thread tables `Bolt` uses hold exactly the numbers of the two thread files. -/
theorem C74_thread_tables :
    Holds (readFile shippedDisk "ANSI_inch_external_thread.csv")
      ("thread size" :: "thread class" :: Bolt.external.cols)
      (Bolt.external.rows.map fun r => .str r.1 :: .str r.2.1 :: r.2.2.map fun n : ℕ => dec 4 n) ∧
    Holds (readFile shippedDisk "ANSI_inch_internal_thread.csv")
      ("thread size" :: "thread class" :: Bolt.internal.cols)
      (Bolt.internal.rows.map fun r => .str r.1 :: .str r.2.1 :: r.2.2.map fun n : ℕ => dec 4 n) := by
  constructor <;> (apply holds_of; decide +kernel)

/-- C74: the allowable stresses. -/
theorem C74_stress_tables :
    Holds (readFile shippedDisk "ASME_B31_1_stress_limits_welded.csv")
      ("Temp" :: (Tube.limits true).cols)
      ((Tube.limits true).rows.map fun r => dec 0 r.1 :: r.2.map fun n : ℕ => dec 1 n) ∧
    Holds (readFile shippedDisk "ASME_B31_1_stress_limits_seamless.csv")
      ("Temp" :: (Tube.limits false).cols)
      ((Tube.limits false).rows.map fun r => dec 0 r.1 :: r.2.map fun n : ℕ => dec 1 n) := by
  constructor <;> (apply holds_of; decide +kernel)

/-- C74: the pipe dimensions and the materials. -/
theorem C74_pipe_and_material_tables :
    Holds (readFile shippedDisk "pipe_schedules.csv") ("Size" :: Data.pipeCols)
      (Data.pipeRows.map fun r => .str r.1 :: r.2.map (decOpt 3)) ∧
    Holds (readFile shippedDisk "materials_list.csv")
      ["Grade", "Group", "ElasticModulus", "Density", "Poisson"]
      (Data.materialRows.map fun r =>
        [.str r.1, ((parseNum r.2.1.toList).map Val.num).getD .nan, dec 0 r.2.2.1, dec 1 r.2.2.2.1,
          dec 2 r.2.2.2.2]) := by
  constructor <;> (apply holds_of; decide +kernel)

theorem flange_file (file : String) (cols : List String) (rows : List (Int × List (Option Nat)))
    (h : Holds (readFile shippedDisk file) ("Temperature" :: cols)
      (rows.map fun r => dec 0 r.1 :: r.2.map (decOpt 1))) :
    (readFile shippedDisk file >>= rawOf) = .ok ⟨cols, Flange.rawRows rows⟩ := by
  obtain ⟨f, e, h1, h2⟩ := h
  rw [e, ok_bind, rawOf, h1]
  simp only
  congr 2
  unfold Flange.rawRows
  generalize f.rows = R at h2
  induction R generalizing rows with
  | nil =>
    cases rows with
    | nil => rfl
    | cons a b => simp at h2
  | cons c R ih =>
    cases rows with
    | nil => simp at h2
    | cons a b =>
      simp only [List.map_cons, List.cons.injEq] at h2 ⊢
      refine ⟨?_, ih b h2.2⟩
      have hc : ∀ (x : Cell) (d : ℕ) (n : ℤ), val x = dec d n → coerce x = some ((n : ℝ) / 10 ^ d) := by
        intro x d n hx
        cases x with
        | num q t =>
          simp only [val, dec, Val.num.injEq] at hx
          subst hx
          simp [coerce]
        | str s => simp [val, dec] at hx
        | nan => simp [val, dec] at hx
      have ho : ∀ (x : Cell) (n : Option ℕ), val x = decOpt 1 n →
          coerce x = n.map fun n : ℕ => (n : ℝ) / 10 := by
        intro x n hx
        cases n with
        | none =>
          cases x with
          | num q t => simp [val, decOpt] at hx
          | str s => simp [val, decOpt] at hx
          | nan => rfl
        | some n =>
          have := hc x 1 n hx
          rw [this]; simp
      have hl : ∀ (l : List Cell) (m : List (Option ℕ)), l.map val = m.map (decOpt 1) →
          l.map coerce = m.map (Option.map fun n : ℕ => (n : ℝ) / 10) := by
        intro l
        induction l with
        | nil => intro m hm; cases m with
          | nil => rfl
          | cons => simp at hm
        | cons x l ihl => intro m hm; cases m with
          | nil => simp at hm
          | cons y m =>
            simp only [List.map_cons, List.cons.injEq] at hm ⊢
            exact ⟨ho x y hm.1, ihl m hm.2⟩
      cases c with
      | nil => simp at h2
      | cons x l =>
        simp only [List.map_cons, List.cons.injEq] at h2 ⊢
        have := hc x 0 a.1 h2.1.1
        simp only [pow_zero, div_one] at this
        rw [this, hl l a.2 h2.1.2]

/-- C74: the flange ratings. -/
theorem C74_flange_tables (file : String) (raw : Flange.Raw) (h : Flange.shipped file = some raw) :
    (readFile shippedDisk file >>= rawOf) = .ok raw := by
  unfold Flange.shipped at h
  split at h
  · rename_i e; subst e; cases h
    refine flange_file _ _ _ ?_; apply holds_of; decide +kernel
  · split at h
    · rename_i e; subst e; cases h
      refine flange_file _ _ _ ?_; apply holds_of; decide +kernel
    · split at h
      · rename_i e; subst e; cases h
        refine flange_file _ _ _ ?_; apply holds_of; decide +kernel
      · cases h

/-! ### C75: the material table -/

variable {u : ℕ} {lines : Lines} {f : Frame}

/-- C75: a missing and an empty file are reported as ValueError. -/
theorem C75_missing_or_empty :
    collectTubeMaterials u none = .error (.valueError "\nmaterials_list.csv does not exist") ∧
    ((∀ l ∈ lines, ∀ c ∈ l, c.isWhitespace = true) →
      collectTubeMaterials u (some lines) = .error (.valueError "\nmaterials_list.csv is empty")) := by
  refine ⟨rfl, fun h => ?_⟩
  have : (lines.filter fun l => ¬ blank l) = [] := by
    rw [List.filter_eq_nil_iff]
    intro l hl
    have : blank l = true := List.all_eq_true.mpr (h l hl)
    simp [this]
  simp only [collectTubeMaterials, readMaterials, readCsv, this, err_bind]

/-- C75: KeyError when one of the two columns is missing. -/
theorem C75_missing_column (hf : readCsv lines = .ok f)
    (h : "ElasticModulus" ∉ f.header ∨ "Density" ∉ f.header) :
    ∃ c, collectTubeMaterials u (some lines) = .error (.keyError c) ∧ c ∉ f.header ∧
      (c = "ElasticModulus" ∨ c = "Density") := by
  simp only [collectTubeMaterials, readMaterials, hf, ok_bind, Frame.col]
  by_cases h1 : "ElasticModulus" ∈ f.header
  · have h2 : "Density" ∉ f.header := h.resolve_left (fun x => x h1)
    exact ⟨"Density", by rw [if_pos h1, if_neg h2]; rfl, h2, Or.inr rfl⟩
  · exact ⟨"ElasticModulus", by rw [if_neg h1]; rfl, h1, Or.inl rfl⟩

/-- C75: otherwise there is one entry per row, in the order of the file, and a number `q` in the file
becomes the quantity `q` GPa (`q * 10^9` Pa), respectively `q` g/cm^3 (`q * 1000` kg/m^3), of the package's
registry. -/
theorem C75_loads (hf : readCsv lines = .ok f) (h1 : "ElasticModulus" ∈ f.header)
    (h2 : "Density" ∈ f.header) :
    ∃ m, collectTubeMaterials u (some lines) = .ok m ∧ m.frame = f ∧
      m.modulus.length = f.rows.length ∧ m.density.length = f.rows.length ∧
      ∀ (i : ℕ) (row : List Cell), f.rows[i]? = some row →
        (∀ (q : ℚ) (t : List Char), (f.header.zip row).lookup "ElasticModulus" = some (.num q t) →
          ∃ v : Quantity, m.modulus[i]? = some (some v.toObj) ∧ v.mag = (q : ℝ) ∧
            HasVal v Dim.pressure ((q : ℝ) * 10 ^ 9) u) ∧
        (∀ (q : ℚ) (t : List Char), (f.header.zip row).lookup "Density" = some (.num q t) →
          ∃ v : Quantity, m.density[i]? = some (some v.toObj) ∧ v.mag = (q : ℝ) ∧
            HasVal v Dim.density ((q : ℝ) * 1000) u) := by
  refine ⟨_, by simp only [collectTubeMaterials, readMaterials, hf, ok_bind, Frame.col, if_pos h1, if_pos h2]; rfl,
    rfl, by simp, by simp, fun i row hi => ⟨fun q t hq => ?_, fun q t hq => ?_⟩⟩
  · refine ⟨⟨(q : ℝ), PUnit.gigapascal, u⟩, ?_, rfl, ?_, rfl, ?_, rfl⟩
    · simp only [List.getElem?_map, hi, Option.map_some, hq, Option.getD_some]; rfl
    · rfl
    · simp [PUnit.gigapascal]
  · refine ⟨⟨(q : ℝ), PUnit.gramPerCC, u⟩, ?_, rfl, ?_, rfl, ?_, rfl⟩
    · simp only [List.getElem?_map, hi, Option.map_some, hq, Option.getD_some]; rfl
    · rfl
    · simp [PUnit.gramPerCC]

/-- C75: a missing entry stays missing (a quantity whose magnitude is NaN), whatever the other rows are; it is not
replaced by a number. -/
theorem C75_missing_entry {m : TubeMaterials} (h : collectTubeMaterials u (some lines) = .ok m) {i : ℕ} {row : List Cell}
    (hi : m.frame.rows[i]? = some row) :
    ((m.frame.header.zip row).lookup "ElasticModulus" = some .nan → m.modulus[i]? = some none) ∧
    ((m.frame.header.zip row).lookup "Density" = some .nan → m.density[i]? = some none) := by
  simp only [collectTubeMaterials, bind_eq_ok] at h
  obtain ⟨f, -, e, he, d, hd, h⟩ := h
  cases h
  unfold Frame.col at he hd
  split at he <;> cases he
  split at hd <;> cases hd
  simp only at hi ⊢
  refine ⟨fun hq => ?_, fun hq => ?_⟩ <;>
    · simp only [List.getElem?_map, hi, Option.map_some, hq, Option.getD_some]; rfl

/-- C75: a column that is not numeric is loaded as text with the unit attached: no number is made of it, so that arithmetic
with the entry raises. -/
theorem C75_text_entry {m : TubeMaterials} (h : collectTubeMaterials u (some lines) = .ok m) {i : ℕ} {row : List Cell}
    (hi : m.frame.rows[i]? = some row) (s : String) :
    ((m.frame.header.zip row).lookup "ElasticModulus" = some (.str s) →
      ∃ v, m.modulus[i]? = some (some (.quantity (.text v) PUnit.gigapascal u))) ∧
    ((m.frame.header.zip row).lookup "Density" = some (.str s) →
      ∃ v, m.density[i]? = some (some (.quantity (.text v) PUnit.gramPerCC u))) := by
  simp only [collectTubeMaterials, bind_eq_ok] at h
  obtain ⟨f, -, e, he, d, hd, h⟩ := h
  cases h
  unfold Frame.col at he hd
  split at he <;> cases he
  split at hd <;> cases hd
  simp only at hi ⊢
  refine ⟨fun hq => ⟨(parseNum s.toList).map fun q : ℚ => (q : ℝ), ?_⟩,
    fun hq => ⟨(parseNum s.toList).map fun q : ℚ => (q : ℝ), ?_⟩⟩ <;>
    · simp only [List.getElem?_map, hi, Option.map_some, hq, Option.getD_some]; rfl

/-- The hypotheses are met by the shipped file, whose fourth row is 316H: 200 GPa, 7.9 g/cm^3. -/
example : ∃ f, readCsv Data.materialsText = .ok f ∧ "ElasticModulus" ∈ f.header ∧ "Density" ∈ f.header ∧
    f.rows.length = 7 ∧ (f.rows.getD 3 []).map val = [.str "316H", dec 1 22, dec 0 200, dec 1 79, dec 2 28] := by
  obtain ⟨f, e, h1, h2⟩ := C74_pipe_and_material_tables.2
  refine ⟨f, e, by rw [h1]; decide, by rw [h1]; decide, ?_, ?_⟩
  · have := congrArg List.length h2; rw [List.length_map, List.length_map] at this; exact this
  · have : (f.rows.getD 3 []).map val = (f.rows.map (·.map val)).getD 3 [] := by
      rw [List.getD_eq_getElem?_getD, List.getD_eq_getElem?_getD, List.getElem?_map]
      cases f.rows[3]? <;> rfl
    rw [this, h2]; decide +kernel

/-- A file with a missing modulus, a row that is too short, and a text among the densities. -/
def holesText : Lines :=
  ["Grade,ElasticModulus,Density".toList, "304,,8".toList, "316,200,x".toList, "A,193".toList]

example : ∃ m, collectTubeMaterials u (some holesText) = .ok m ∧ m.modulus[0]? = some none ∧
    m.density[2]? = some none ∧ (∃ v, m.density[1]? = some (some (.quantity (.text v) PUnit.gramPerCC u))) := by
  have hb : (match readCsv holesText with
      | .ok f => decide (f = ⟨["Grade", "ElasticModulus", "Density"],
          [[.str "304", .nan, .str "8"], [.str "316", .num 200 "200".toList, .str "x"],
           [.str "A", .num 193 "193".toList, .nan]]⟩)
      | .error _ => false) = true := by decide +kernel
  split at hb
  · rename_i f e
    have hf := of_decide_eq_true hb
    obtain ⟨m, hm, hmf, -⟩ := C75_loads (u := u) e (by rw [hf]; decide) (by rw [hf]; decide)
    rw [hf] at hmf
    have r := fun i row (h : m.frame.rows[i]? = some row) => C75_missing_entry hm h
    have t := fun i row (h : m.frame.rows[i]? = some row) => C75_text_entry hm h "x"
    rw [hmf] at r t
    exact ⟨m, hm, (r 0 _ rfl).1 (by decide +kernel), (r 2 _ rfl).2 (by decide +kernel), (t 1 _ rfl).2 (by decide +kernel)⟩
  · cases hb

/-! ### C74, C76: importing the package -/

open Materials (Enumerates HasColumn IsStress IsFlange Mentions)

variable {disk : Disk} {listing : List String} {iter : List String → List String} {T : Tables}

/-- The directory entries the import check sees. -/
def entries (disk : Disk) (listing : List String) : List Materials.Entry :=
  listing.map fun n => ⟨n, firstLine disk n⟩

/-- A decidable condition under which the import check passes. -/
def passB (files : List Materials.Entry) (materials : List (String × String)) : Bool :=
  (files.any fun f => pyIn "flange" (Materials.lower f.name)) &&
  (files.all fun f => !(pyIn "stress" (Materials.lower f.name)) ||
    materials.all fun m => decide (m.1 ∈ Materials.columns f.firstLine)) &&
  materials.all fun m => files.any fun f => pyIn "flange" (Materials.lower f.name) &&
    decide (0 < Materials.pyFind (Flange.fileGroup m.2).toList f.name.toList 0)

theorem pass_of {dir : String} {files : List Materials.Entry} {materials : List (String × String)}
    (hiter : Enumerates iter) (h : passB files materials = true) :
    (Materials.checkMaterialsList dir files materials iter).2 = .ok true := by
  simp only [passB, Bool.and_eq_true, List.any_eq_true, List.all_eq_true, Bool.or_eq_true,
    Bool.not_eq_true', decide_eq_true_eq] at h
  obtain ⟨⟨⟨f, hf, h1⟩, h2⟩, h3⟩ := h
  refine (Materials.C50_returns_true_partial hiter).mpr
    ⟨⟨f, hf, Or.inl (Materials.flangeB.mp h1)⟩, fun f hf hs m hm => ?_, fun m hm => ?_⟩
  · rcases h2 f hf with h | h
    · rw [← Materials.stressB, h] at hs; cases hs
    · exact (Materials.mem_columns _ _).mp (h m hm)
  · obtain ⟨f, hf, hfl, hp⟩ := h3 m hm
    exact ⟨f, hf, Materials.flangeB.mp hfl, Materials.mentions_iff.mp hp⟩

theorem flange_of_shipped
    (h1 : disk "ASME_B16_5_flange_ratings_group_2_1.csv" = some Data.group21Text)
    (h2 : disk "ASME_B16_5_flange_ratings_group_2_2.csv" = some Data.group22Text)
    (h3 : disk "ASME_B16_5_flange_ratings_group_2_3.csv" = some Data.group23Text) :
    Flange.forEach (loadGroupFile disk) ["2.1", "2.2", "2.3"] = Flange.loadAll Flange.shipped := by
  have n1 : Flange.fileName "2.1" = "ASME_B16_5_flange_ratings_group_2_1.csv" := by decide +kernel
  have n2 : Flange.fileName "2.2" = "ASME_B16_5_flange_ratings_group_2_2.csv" := by decide +kernel
  have n3 : Flange.fileName "2.3" = "ASME_B16_5_flange_ratings_group_2_3.csv" := by decide +kernel
  have key : ∀ (g file : String) (t : Lines) (raw : Flange.Raw), Flange.fileName g = file →
      disk file = some t → shippedDisk file = some t → Flange.shipped file = some raw →
      loadGroupFile disk g = Flange.loadGroup Flange.shipped g := by
    intro g file t raw hn hd hs hr
    have := C74_flange_tables file raw hr
    have e : readFile disk file = readFile shippedDisk file := by unfold readFile; rw [hd, hs]
    unfold loadGroupFile Flange.loadGroup
    rw [hn, hr, e]
    cases hrf : readFile shippedDisk file with
    | error x => rw [hrf] at this; cases this
    | ok fr =>
      rw [hrf, ok_bind] at this
      simp only [ok_bind, this]
  unfold Flange.loadAll
  simp only [Flange.forEach]
  rw [key "2.1" _ _ _ n1 h1 (by rfl) (by unfold Flange.shipped; rw [if_pos rfl]),
    key "2.2" _ _ _ n2 h2 (by rfl) (by unfold Flange.shipped; rw [if_neg (by decide), if_pos rfl]),
    key "2.3" _ _ _ n3 h3 (by rfl)
      (by unfold Flange.shipped; rw [if_neg (by decide), if_neg (by decide), if_pos rfl])]

/-- Import of a directory whose flange files are the shipped ones. -/
theorem import_of {w s p i e m : Frame} {mt : TubeMaterials} {gr gp : List Cell} (hiter : Enumerates iter)
    (hw : readFile disk "ASME_B31_1_stress_limits_welded.csv" = .ok w)
    (hs : readFile disk "ASME_B31_1_stress_limits_seamless.csv" = .ok s)
    (hp : readFile disk "pipe_schedules.csv" = .ok p)
    (hm : collectTubeMaterials u (disk "materials_list.csv") = .ok mt) (hmf : mt.frame = m)
    (hgr : m.col "Grade" = .ok gr) (hgp : m.col "Group" = .ok gp)
    (hc : passB (entries disk listing) ((astypeStr gr).zip (astypeStr gp)) = true)
    (h1 : disk "ASME_B16_5_flange_ratings_group_2_1.csv" = some Data.group21Text)
    (h2 : disk "ASME_B16_5_flange_ratings_group_2_2.csv" = some Data.group22Text)
    (h3 : disk "ASME_B16_5_flange_ratings_group_2_3.csv" = some Data.group23Text)
    (hi : readFile disk "ANSI_inch_internal_thread.csv" = .ok i)
    (he : readFile disk "ANSI_inch_external_thread.csv" = .ok e) :
    ∃ fl, Flange.loadAll Flange.shipped = .ok fl ∧
      importTube u disk listing iter = .ok ⟨w, s, p, mt, fl, i, e⟩ := by
  refine ⟨_, Flange.load_shipped, ?_⟩
  have hcl : checkList disk listing iter mt.frame = .ok true := by
    unfold checkList
    rw [hmf, hgr, hgp]
    exact pass_of hiter hc
  unfold importTube
  rw [hw, hs, hp, hm]
  simp only [ok_bind]
  rw [hcl, flange_of_shipped h1 h2 h3, Flange.load_shipped, hi, he]
  rfl

theorem col_ok {x : Py Frame} {header : List String} {rows : List (List Val)} (h : Holds x header rows)
    {name : String} (hn : name ∈ header) (hx : x = .ok f) :
    ∃ c, f.col name = .ok c := by
  obtain ⟨f', e, h1, -⟩ := h
  rw [hx] at e; cases e
  exact ⟨_, by rw [Frame.col, h1, if_pos hn]⟩

/-- Columns "Grade" and "Group" of a file, as strings. -/
def gradesGroups (t : Lines) : Option (List String × List String) :=
  match readCsv t with
  | .ok f =>
    match f.col "Grade", f.col "Group" with
    | .ok a, .ok b => some (astypeStr a, astypeStr b)
    | _, _ => none
  | .error _ => none

/-- Import of a directory that differs from the shipped one in the material list and in further files. -/
theorem import_materials {t : Lines} {gs ps : List String} (hiter : Enumerates iter)
    (hd : ∀ n, n ≠ "materials_list.csv" → n ∈ shipped.map (·.1) → disk n = shippedDisk n)
    (ht : disk "materials_list.csv" = some t) (hg : gradesGroups t = some (gs, ps))
    (hm : ∃ mt, collectTubeMaterials u (some t) = .ok mt)
    (hc : passB (entries disk listing) (gs.zip ps) = true) :
    ∃ T, importTube u disk listing iter = .ok T ∧ Flange.loadAll Flange.shipped = .ok T.flange ∧
      readCsv t = .ok T.materials.frame ∧
      readFile shippedDisk "ASME_B31_1_stress_limits_welded.csv" = .ok T.welded ∧
      readFile shippedDisk "ASME_B31_1_stress_limits_seamless.csv" = .ok T.seamless ∧
      readFile shippedDisk "pipe_schedules.csv" = .ok T.pipes ∧
      readFile shippedDisk "ANSI_inch_internal_thread.csv" = .ok T.internal ∧
      readFile shippedDisk "ANSI_inch_external_thread.csv" = .ok T.external := by
  have hr : ∀ n, n ≠ "materials_list.csv" → n ∈ shipped.map (·.1) →
      readFile disk n = readFile shippedDisk n := by
    intro n h1 h2; unfold readFile; rw [hd n h1 h2]
  obtain ⟨w, hw, -⟩ := C74_stress_tables.1
  obtain ⟨s, hs, -⟩ := C74_stress_tables.2
  obtain ⟨p, hp, -⟩ := C74_pipe_and_material_tables.1
  obtain ⟨e, he, -⟩ := C74_thread_tables.1
  obtain ⟨i, hi, -⟩ := C74_thread_tables.2
  obtain ⟨mt, hm⟩ := hm
  have hmf : readCsv t = .ok mt.frame := by
    unfold collectTubeMaterials at hm
    simp only [bind_eq_ok] at hm
    obtain ⟨f, h1, a, h2, b, h3, h4⟩ := hm
    cases h4
    unfold readMaterials at h1
    simp only at h1
    split at h1
    · cases h1
    · exact h1
  unfold gradesGroups at hg
  rw [hmf] at hg
  simp only at hg
  split at hg
  · rename_i a b ha hb
    cases hg
    obtain ⟨fl, e1, e2⟩ := import_of (listing := listing) hiter
      ((hr _ (by decide) (by decide)).trans hw) ((hr _ (by decide) (by decide)).trans hs)
      ((hr _ (by decide) (by decide)).trans hp) (ht ▸ hm) rfl ha hb hc
      ((hd _ (by decide) (by decide)).trans rfl) ((hd _ (by decide) (by decide)).trans rfl)
      ((hd _ (by decide) (by decide)).trans rfl)
      ((hr _ (by decide) (by decide)).trans hi) ((hr _ (by decide) (by decide)).trans he)
    exact ⟨_, e2, e1, hmf, hw, hs, hp, hi, he⟩
  · cases hg

theorem collect_ok {t : Lines} {g m : List Cell} (h1 : readCsv t = .ok f)
    (h2 : f.col "ElasticModulus" = .ok g) (h3 : f.col "Density" = .ok m) :
    ∃ mt, collectTubeMaterials u (some t) = .ok mt := by
  unfold collectTubeMaterials readMaterials
  simp only [h1, ok_bind, h2, h3]
  exact ⟨_, rfl⟩

/-- C74: importing the package with the shipped files succeeds, whatever the order in which the set of
groups is traversed, and gives the tables above. -/
theorem C74_import_succeeds (hiter : Enumerates iter) :
    ∃ T, importTube u shippedDisk (shipped.map (·.1)) iter = .ok T ∧
      Flange.loadAll Flange.shipped = .ok T.flange ∧
      readFile shippedDisk "materials_list.csv" = .ok T.materials.frame ∧
      readFile shippedDisk "ASME_B31_1_stress_limits_welded.csv" = .ok T.welded ∧
      readFile shippedDisk "ASME_B31_1_stress_limits_seamless.csv" = .ok T.seamless ∧
      readFile shippedDisk "pipe_schedules.csv" = .ok T.pipes ∧
      readFile shippedDisk "ANSI_inch_internal_thread.csv" = .ok T.internal ∧
      readFile shippedDisk "ANSI_inch_external_thread.csv" = .ok T.external := by
  have hH := C74_pipe_and_material_tables.2
  obtain ⟨f, e, -⟩ := id hH
  obtain ⟨a, ha⟩ := col_ok hH (name := "ElasticModulus") (by decide) e
  obtain ⟨b, hb⟩ := col_ok hH (name := "Density") (by decide) e
  refine import_materials (t := Data.materialsText)
    (gs := ["304", "304H", "316", "316H", "317", "304L", "316L"])
    (ps := ["2.1", "2.1", "2.2", "2.2", "2.2", "2.3", "2.3"]) hiter (fun _ _ _ => rfl) rfl
    (by decide +kernel) (collect_ok e ha hb) (by decide +kernel)

/-- C76: a successful import found all the files. -/
theorem C76_files_exist (h : importTube u disk listing iter = .ok T) :
    ∀ n ∈ shipped.map (·.1), disk n ≠ none := by
  have n1 : Flange.fileName "2.1" = "ASME_B16_5_flange_ratings_group_2_1.csv" := by decide +kernel
  have n2 : Flange.fileName "2.2" = "ASME_B16_5_flange_ratings_group_2_2.csv" := by decide +kernel
  have n3 : Flange.fileName "2.3" = "ASME_B16_5_flange_ratings_group_2_3.csv" := by decide +kernel
  have hr : ∀ {n : String} {f : Frame}, readFile disk n = .ok f → disk n ≠ none := by
    intro n f hf hn
    rw [readFile, hn] at hf; cases hf
  unfold importTube at h
  simp only [bind_eq_ok, Flange.forEach, loadGroupFile, n1, n2, n3] at h
  obtain ⟨w, hw, s, hs, p, hp, m, hm, b, hb, fl, ⟨f1, ⟨r1, g1, -⟩, l1, ⟨f2, ⟨r2, g2, -⟩, l2,
    ⟨f3, ⟨r3, g3, -⟩, -⟩, -⟩, -⟩, i, hi, e, he, -⟩ := h
  have hmm : disk "materials_list.csv" ≠ none := by
    intro hn
    rw [hn] at hm
    cases hm
  intro n hn
  simp only [shipped, List.map_cons, List.map_nil, List.mem_cons, List.not_mem_nil, or_false] at hn
  rcases hn with rfl | rfl | rfl | rfl | rfl | rfl | rfl | rfl | rfl
  · exact hr he
  · exact hr hi
  · exact hr g1
  · exact hr g2
  · exact hr g3
  · exact hr hs
  · exact hr hw
  · exact hmm
  · exact hr hp

/-- A header line without blanks at its ends. -/
def Tidy (l : List Char) : Prop :=
  l ≠ [] ∧ (∀ c, l.head? = some c → c.isWhitespace = false) ∧
    ∀ c, l.getLast? = some c → c.isWhitespace = false

theorem columns_firstLine {name : String} {l : List Char} {ls : Lines}
    (hl : disk name = some (l :: ls)) (ht : Tidy l) :
    Materials.columns (firstLine disk name) = ((fields l).drop 1).map String.ofList := by
  unfold Materials.columns firstLine
  rw [hl]
  simp only [String.toList_ofList]
  have := Materials.strip_eq (w := []) (l := l) (w' := ['\n']) (by intro c hc; cases hc)
    (by intro c hc; rw [List.mem_singleton] at hc; subst hc; decide) ht.2.1 ht.2.2
  rw [List.nil_append] at this
  rw [this]; rfl

theorem header_of_tidy {name : String} {l : List Char} {ls : Lines}
    (hl : disk name = some (l :: ls)) (ht : Tidy l) (hf : readFile disk name = .ok f) :
    f.header = (fields l).map String.ofList := by
  have hb : blank l = false := by
    cases l with
    | nil => exact absurd rfl ht.1
    | cons c l => simp [blank, ht.2.1 c rfl]
  unfold readFile readCsv at hf
  rw [hl] at hf
  simp only [List.filter_cons, hb] at hf
  simp only [Bool.false_eq_true, not_false_eq_true, decide_true, if_true] at hf
  split at hf
  · cases hf
  · cases hf; rfl

/-- C76, the part that holds: after a successful import every grade of the material list (as a string) is
a column of both stress tables, provided the two files are listed and their header lines neither begin nor
end with blanks.  Missing: the flange part, see `C76_group_violated`, grades that are all numbers, see
`C76_numeric_grades_violated`, and headers with a blank at the end. -/
theorem C76_stress_columns_partial (h : importTube u disk listing iter = .ok T) (hiter : Enumerates iter)
    {name : String} (hname : name = "ASME_B31_1_stress_limits_welded.csv" ∨
      name = "ASME_B31_1_stress_limits_seamless.csv")
    (hl : name ∈ listing) {l : List Char} {ls : Lines} (hd : disk name = some (l :: ls)) (ht : Tidy l) :
    ∃ grades table, T.materials.frame.col "Grade" = .ok grades ∧ readFile disk name = .ok table ∧
      (table = T.welded ∨ table = T.seamless) ∧
      ∀ g ∈ astypeStr grades, g ∈ table.header.drop 1 := by
  unfold importTube at h
  simp only [bind_eq_ok] at h
  obtain ⟨w, hw, s, hs, p, hp, m, hm, b, hb, fl, -, i, hi, e, he, hT⟩ := h
  cases hT
  unfold checkList at hb
  simp only [bind_eq_ok] at hb
  obtain ⟨gr, hgr, gp, hgp, hb⟩ := hb
  have hb : (Materials.checkMaterialsList "lookup_data" (entries disk listing)
      ((astypeStr gr).zip (astypeStr gp)) iter).2 = .ok true := by
    have hb' := hb
    unfold Materials.checkMaterialsList at hb'
    simp only at hb'
    split at hb'
    · cases hb'
    · split at hb'
      · rename_i h1 h2; cases hb'; exact hb
      · cases hb'
  obtain ⟨-, hcol, -⟩ := (Materials.C50_returns_true_partial hiter).mp hb
  have hlen : (astypeStr gr).length = (astypeStr gp).length := by
    have : ∀ {c : List Cell} {n : String}, m.frame.col n = .ok c → c.length = m.frame.rows.length := by
      intro c n hc
      unfold Frame.col at hc
      split at hc
      · cases hc; simp
      · cases hc
    simp [astypeStr, this hgr, this hgp]
  have hin : ∀ g ∈ astypeStr gr, g ∈ Materials.columns (firstLine disk name) := by
    intro g hg
    obtain ⟨k, hk, rfl⟩ := List.getElem_of_mem hg
    have hz : ((astypeStr gr)[k], (astypeStr gp)[k]'(hlen ▸ hk)) ∈ (astypeStr gr).zip (astypeStr gp) := by
      rw [List.mem_iff_getElem]
      exact ⟨k, by simp [hk, ← hlen], by simp⟩
    refine (Materials.mem_columns _ _).mpr (hcol ⟨name, firstLine disk name⟩
      (List.mem_map.mpr ⟨name, hl, rfl⟩) ?_ _ hz)
    rw [← Materials.stressB]
    change pyIn "stress" (Materials.lower name) = true
    rcases hname with rfl | rfl <;> decide +kernel
  rcases hname with rfl | rfl
  · refine ⟨gr, w, hgr, hw, Or.inl rfl, fun g hg => ?_⟩
    have := hin g hg
    rw [columns_firstLine hd ht, List.map_drop, ← header_of_tidy hd ht hw] at this
    exact this
  · refine ⟨gr, s, hgr, hs, Or.inr rfl, fun g hg => ?_⟩
    have := hin g hg
    rw [columns_firstLine hd ht, List.map_drop, ← header_of_tidy hd ht hs] at this
    exact this

/-- The shipped directory meets the hypotheses. -/
example (hiter : Enumerates iter) : ∃ T l ls,
    importTube u shippedDisk (shipped.map (·.1)) iter = .ok T ∧
    "ASME_B31_1_stress_limits_welded.csv" ∈ shipped.map (·.1) ∧
    shippedDisk "ASME_B31_1_stress_limits_welded.csv" = some (l :: ls) ∧ Tidy l := by
  obtain ⟨T, h, -⟩ := C74_import_succeeds (u := u) hiter
  refine ⟨T, _, _, h, by decide, rfl, by simp, ?_, ?_⟩
  · intro c hc; cases hc; decide
  · intro c hc; simp only [List.getLast?_cons_cons, List.getLast?_singleton] at hc; cases hc; decide

/-- The shipped directory with another material list and one more rating file. -/
def variant (materials : Lines) (extra : String) : Disk := fun n =>
  if n = "materials_list.csv" then some materials
  else if n = extra then some Data.group21Text else shippedDisk n

theorem variant_import {t : Lines} {extra : String} {gs ps : List String} (hiter : Enumerates iter)
    (hx : extra ∉ shipped.map (·.1)) (hg : gradesGroups t = some (gs, ps))
    (hm : ∃ mt, collectTubeMaterials u (some t) = .ok mt)
    (hc : passB (entries (variant t extra) (extra :: shipped.map (·.1))) (gs.zip ps) = true) :
    ∃ T, importTube u (variant t extra) (extra :: shipped.map (·.1)) iter = .ok T ∧
      T.flange.map (·.1) = ["2.1", "2.2", "2.3"] ∧ readCsv t = .ok T.materials.frame := by
  obtain ⟨T, h1, h2, h3, -⟩ := import_materials (disk := variant t extra) (u := u) hiter
    (fun n h1 h2 => by
      unfold variant
      rw [if_neg h1, if_neg (show n ≠ extra from fun e => hx (e ▸ h2))]) (by unfold variant; rw [if_pos rfl]) hg hm hc
  refine ⟨T, h1, ?_, h3⟩
  rw [Flange.load_shipped] at h2
  have h2 := Except.ok.inj h2
  rw [← h2]
  rfl

theorem collect_of_holds {t : Lines} {header : List String} {rows : List (List Val)}
    (h : Holds (readCsv t) header rows) (h1 : "ElasticModulus" ∈ header) (h2 : "Density" ∈ header) :
    ∃ mt, collectTubeMaterials u (some t) = .ok mt := by
  obtain ⟨f, e, -⟩ := id h
  obtain ⟨a, ha⟩ := col_ok h h1 e
  obtain ⟨b, hb⟩ := col_ok h h2 e
  exact collect_ok e ha hb

/-- C76 is false: a material of a group beyond 2.1-2.3 passes the import check when a rating file with its
group exists, but that file is never loaded, so looking up its ratings fails. -/
theorem C76_group_violated (hiter : Enumerates iter) :
    ∃ disk listing T grades groups, importTube u disk listing iter = .ok T ∧
      (∀ n ∈ listing, disk n ≠ none) ∧
      T.materials.frame.col "Grade" = .ok grades ∧ T.materials.frame.col "Group" = .ok groups ∧
      astypeStr grades = ["304H"] ∧ astypeStr groups = ["2.4"] ∧ T.flange.lookup "2.4" = none := by
  have hH : Holds (readCsv [Data.materialsText.headD [], chars!"304H,2.4,200,7.8,0.28"])
      ["Grade", "Group", "ElasticModulus", "Density", "Poisson"]
      [[.str "304H", dec 1 24, dec 0 200, dec 1 78, dec 2 28]] := by
    apply holds_of; decide +kernel
  have hg : gradesGroups [Data.materialsText.headD [], chars!"304H,2.4,200,7.8,0.28"] =
      some (["304H"], ["2.4"]) := by decide +kernel
  obtain ⟨T, h1, h2, h3⟩ := variant_import (u := u) (extra := "ASME_B16_5_flange_ratings_group_2_4.csv")
    hiter (by decide) hg (collect_of_holds hH (by decide) (by decide)) (by decide +kernel)
  unfold gradesGroups at hg
  rw [h3] at hg
  simp only at hg
  split at hg
  · rename_i a b ha hb
    simp only [Option.some.injEq, Prod.mk.injEq] at hg
    refine ⟨_, _, T, a, b, h1, ?_, ha, hb, hg.1, hg.2, ?_⟩
    · intro n hn
      unfold variant
      split
      · simp
      · split
        · simp
        · rename_i h4 h5
          rcases List.mem_cons.mp hn with h | h
          · exact absurd h h5
          · have : ∀ n ∈ shipped.map (·.1), (shippedDisk n).isSome = true := by decide +kernel
            have := this n h
            intro h0; rw [h0] at this; cases this
    · have : ∀ (l : List (String × Flange.Frame)), "2.4" ∉ l.map (·.1) → l.lookup "2.4" = none := by
        intro l hl
        rw [List.lookup_eq_none_iff]
        intro p hp
        have : "2.4" ≠ p.1 := fun e => hl (List.mem_map.mpr ⟨p, hp, e.symm⟩)
        simpa using this
      exact this _ (by rw [h2]; decide)
  · cases hg

/-- C76 is false: when all grades are numbers pandas reads numbers, and no string is among the grades any
more, so every material given as a string is refused although the import check passed. -/
theorem C76_numeric_grades_violated (hiter : Enumerates iter) :
    ∃ disk listing T grades, importTube u disk listing iter = .ok T ∧
      T.materials.frame.col "Grade" = .ok grades ∧ astypeStr grades = ["304", "316"] ∧
      ∀ s, Cell.str s ∉ grades := by
  have hH : Holds (readCsv [Data.materialsText.headD [], chars!"304,2.1,200,7.8,0.28", chars!"316,2.2,200,7.9,0.28"])
      ["Grade", "Group", "ElasticModulus", "Density", "Poisson"]
      [[dec 0 304, dec 1 21, dec 0 200, dec 1 78, dec 2 28], [dec 0 316, dec 1 22, dec 0 200, dec 1 79, dec 2 28]] := by
    apply holds_of; decide +kernel
  have hg : gradesGroups [Data.materialsText.headD [], chars!"304,2.1,200,7.8,0.28", chars!"316,2.2,200,7.9,0.28"] =
      some (["304", "316"], ["2.1", "2.2"]) := by decide +kernel
  obtain ⟨T, h1, -, h3⟩ := variant_import (u := u) (extra := "x")
    hiter (by decide) hg (collect_of_holds hH (by decide) (by decide)) (by decide +kernel)
  obtain ⟨f, e, hh, hr⟩ := hH
  rw [h3] at e; cases e
  unfold gradesGroups at hg
  rw [h3] at hg
  simp only at hg
  split at hg
  · rename_i a b ha hb
    simp only [Option.some.injEq, Prod.mk.injEq] at hg
    refine ⟨_, _, T, a, h1, ha, hg.1, fun s hs => ?_⟩
    unfold Frame.col at ha
    rw [hh, if_pos (by decide)] at ha
    cases ha
    generalize T.materials.frame.rows = R at hr hs
    obtain ⟨r, hR, hs⟩ := List.mem_map.mp hs
    have hv : r.map val ∈ R.map (·.map val) := List.mem_map.mpr ⟨r, hR, rfl⟩
    rw [hr] at hv
    cases r with
    | nil => simp at hv
    | cons c r =>
      simp only [List.zip_cons_cons, List.lookup_cons_self, Option.getD_some] at hs
      subst hs
      simp [val, dec] at hv
  · cases hg

/-- C76 is false: ASME group 2.10 is read as the number 2.1, so such a material passes the check and gets
the ratings of group 2.1. -/
theorem C76_group_2_10_violated (hiter : Enumerates iter) :
    ∃ materials disk listing T groups, disk "materials_list.csv" = some materials ∧
      materials[1]? = some (chars!"304H,2.10,200,7.8,0.28") ∧ materials.length = 2 ∧
      importTube u disk listing iter = .ok T ∧
      T.materials.frame.col "Group" = .ok groups ∧ astypeStr groups = ["2.1"] := by
  have hH : Holds (readCsv [Data.materialsText.headD [], chars!"304H,2.10,200,7.8,0.28"])
      ["Grade", "Group", "ElasticModulus", "Density", "Poisson"]
      [[.str "304H", dec 1 21, dec 0 200, dec 1 78, dec 2 28]] := by
    apply holds_of; decide +kernel
  have hg : gradesGroups [Data.materialsText.headD [], chars!"304H,2.10,200,7.8,0.28"] =
      some (["304H"], ["2.1"]) := by decide +kernel
  obtain ⟨T, h1, h2, h3⟩ := variant_import (u := u) (extra := "x")
    hiter (by decide) hg (collect_of_holds hH (by decide) (by decide)) (by decide +kernel)
  unfold gradesGroups at hg
  rw [h3] at hg
  simp only at hg
  split at hg
  · rename_i a b ha hb
    simp only [Option.some.injEq, Prod.mk.injEq] at hg
    exact ⟨_, _, _, T, b, by unfold variant; rw [if_pos rfl], rfl, rfl, h1, hb, hg.2⟩
  · cases hg

end Pypbomb.Import
