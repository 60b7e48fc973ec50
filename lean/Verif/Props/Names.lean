import Verif.Model.Exec
import Verif.Model.Media
import Verif.Model.Propset
import Verif.Model.ExcelEngine
import Verif.Model.Asf
import Verif.Spec.Reader
import Verif.Lemmas.Workbook

/-!
# Names stand for numbers (C97)

A report shows names in place of the numbers of the file: kinds of records, functions, code pages, countries,
types of properties, machines. A name is of use only if it stands for one number.
-/

namespace Fileid.Props

open Common Tables ExcelTables Excel Propset Exec

/-- Of the numbers that are given a name, no two are given the same one; `other` is what is shown for all the numbers
without a name, and is the name of none. -/
def NamesOne {α : Type} (name : α → Bytes) (other : α → Bytes) : Prop :=
  ∀ x y, name x = name y → name x ≠ other x → x = y

theorem lookup_mem {α : Type} [DecidableEq α] {t : List (α × Bytes)} {k : α} {n : Bytes} (h : lookup t k = some n) :
    (k, n) ∈ t := by
  unfold lookup at h
  rw [Option.map_eq_some_iff] at h
  obtain ⟨e, he, rfl⟩ := h
  have := List.find?_some he
  have hm := List.mem_of_find?_eq_some he
  simp only [decide_eq_true_eq] at this
  rw [← this]; exact hm

/-- A number for a name. -/
def code : Bytes → Nat
  | [] => 0
  | b :: bs => code bs * 256 + b.toNat

/-- No number occurs twice. -/
def distinct : List Nat → Bool
  | [] => true
  | x :: l => l.all (fun y => !Nat.beq x y) && distinct l

theorem distinct_inj {α : Type} (f : α → Nat) : ∀ {l : List α}, distinct (l.map f) = true → ∀ {a b}, a ∈ l → b ∈ l →
    f a = f b → a = b
  | x :: l, hn, a, b, ha, hb, h => by
    rw [List.map_cons, distinct, Bool.and_eq_true, List.all_eq_true] at hn
    have hx : ∀ c ∈ l, f x ≠ f c := by
      intro c hc he
      have := hn.1 _ (List.mem_map_of_mem hc)
      rw [he, Nat.beq_refl] at this
      exact Bool.noConfusion this
    rcases List.mem_cons.1 ha with rfl | ha' <;> rcases List.mem_cons.1 hb with rfl | hb'
    · rfl
    · exact absurd h (hx _ hb')
    · exact absurd h.symm (hx _ ha')
    · exact distinct_inj f hn.2 ha' hb' h

theorem namesOne {α : Type} [DecidableEq α] (t : List (α × Bytes)) {name other : α → Bytes}
    (h : ∀ x, name x = (lookup t x).getD (other x)) (hn : distinct (t.map fun e => code e.2) = true) (ho : ∀ x, ∀ e ∈ t, e.2 ≠ other x) :
    NamesOne name other := by
  intro x y hxy hx
  rw [h x] at hx
  rw [h x, h y] at hxy
  cases hlx : lookup t x with
  | none => rw [hlx] at hx; exact absurd rfl hx
  | some n =>
    rw [hlx] at hxy
    cases hly : lookup t y with
    | none => rw [hly] at hxy; exact absurd hxy (ho y _ (lookup_mem hlx))
    | some m =>
      rw [hly] at hxy
      exact congrArg Prod.fst (distinct_inj _ hn (lookup_mem hlx) (lookup_mem hly) (congrArg code hxy))

/-- The text `pre` followed by a number is no row of a table without rows that begin with `pre`. -/
theorem other_numbered {t : List (Nat × Bytes)} (pre : Bytes) (tail : Nat → Bytes)
    (h : ∀ e ∈ t, e.2.take pre.length ≠ pre) (x : Nat) : ∀ e ∈ t, e.2 ≠ pre ++ tail x := by
  intro e he hc
  exact h e he (by rw [hc, List.take_append_of_le_length (Nat.le_refl _), List.take_length])

theorem namesOne_const {α : Type} [DecidableEq α] (t : List (α × Bytes)) {name : α → Bytes} (other : Bytes)
    (h : ∀ x, name x = (lookup t x).getD other) (hn : distinct (t.map fun e => code e.2) = true) (ho : ∀ e ∈ t, e.2 ≠ other) :
    NamesOne name (fun _ => other) := namesOne t h hn fun _ => ho

theorem recordTypes_one : NamesOne GetRecordTypeStr (fun _ => b!"Unknown/Undocumented RecordType") :=
  namesOne_const recordTypes _ (fun _ => rfl) (by decide +kernel) (by decide +kernel)
theorem functions_one : NamesOne GetFunctionName_FTab (fun _ => b!"Unknown_fTab_Function") :=
  namesOne_const functions _ (fun _ => rfl) (by decide +kernel) (by decide +kernel)
theorem commands_one : NamesOne GetFunctionName_CeTab (fun _ => b!"Unknown_CeTab_Function") :=
  namesOne_const commands _ (fun _ => rfl) (by decide +kernel) (by decide +kernel)
theorem codePages_one : NamesOne CPToString (fun _ => b!"Unknown") :=
  namesOne_const codePages _ (fun _ => rfl) (by decide +kernel) (by decide +kernel)
theorem countries_one : NamesOne GetCountryName (fun _ => b!"Unknown") :=
  namesOne_const countries _ (fun _ => rfl) (by decide +kernel) (by decide +kernel)

/-- C97, workbooks: the kind of a record, the function and the command of a formula, the code page and the country. -/
theorem C97_workbook :
    NamesOne GetRecordTypeStr (fun _ => b!"Unknown/Undocumented RecordType") ∧
    NamesOne GetFunctionName_FTab (fun _ => b!"Unknown_fTab_Function") ∧
    NamesOne GetFunctionName_CeTab (fun _ => b!"Unknown_CeTab_Function") ∧
    NamesOne CPToString (fun _ => b!"Unknown") ∧ NamesOne GetCountryName (fun _ => b!"Unknown") :=
  ⟨recordTypes_one, functions_one, commands_one, codePages_one, countries_one⟩

theorem vectorJoin_head (x : Bytes) (l : List Bytes) (sep : Bytes) : ∃ rest, vectorJoin (x :: l) sep = x ++ rest := by
  exact ⟨vectorJoinLoop sep false false l, by simp [vectorJoin, vectorJoinLoop]⟩

theorem takeWhile_stop (n rest : Bytes) (h : 34 ∉ n) : (n ++ 34 :: rest).takeWhile (· ≠ 34) = n := by
  induction n with
  | nil => rfl
  | cons a n ih =>
    rw [List.cons_append, List.takeWhile_cons_of_pos]
    · rw [ih (fun hc => h (List.mem_cons_of_mem _ hc))]
    · simp only [decide_eq_true_eq]; rintro rfl; exact h List.mem_cons_self

theorem json_type (abi : Abi) (fmt : Fmt) (r : Rec) (s : Bytes) (h : r.toJson abi fmt = .ok s) :
    (s.drop 9).takeWhile (· ≠ 34) = GetRecordTypeStr r.type := by
  unfold Rec.toJson at h
  obtain ⟨l, _, hl⟩ := bind_ok_inv h
  cases hl
  obtain ⟨rest, hr⟩ := vectorJoin_head (b!"\"" ++ b!"Type" ++ b!"\":\"" ++ GetRecordTypeStr r.type ++ b!"\"")
    ((numF b!"Length" r.length).toJson :: l.map Field.toJson) b!","
  have hobj : objJson (r.baseFields ++ l) = b!"{" ++ vectorJoin ((b!"\"" ++ b!"Type" ++ b!"\":\"" ++
      GetRecordTypeStr r.type ++ b!"\"") :: (numF b!"Length" r.length).toJson :: l.map Field.toJson) b!"," ++ b!"}" := rfl
  rw [hobj, hr]
  have hq : 34 ∉ GetRecordTypeStr r.type := by
    unfold GetRecordTypeStr
    cases hk : lookup recordTypes r.type with
    | none => decide
    | some n =>
      have : ∀ e ∈ recordTypes, (34 : UInt8) ∉ e.2 := by decide +kernel
      exact this _ (lookup_mem hk)
  have : b!"{" ++ (b!"\"" ++ b!"Type" ++ b!"\":\"" ++ GetRecordTypeStr r.type ++ b!"\"" ++ rest) ++ b!"}" =
      b!"{\"Type\":\"" ++ (GetRecordTypeStr r.type ++ 34 :: (rest ++ b!"}")) := by simp
  rw [this, show (9 : Nat) = (b!"{\"Type\":\"").length from rfl, List.drop_left]
  exact takeWhile_stop _ _ hq

/-- C97, in the report: two records of documented kinds that are shown by the same text are of the same kind, whatever
else they contain. -/
theorem C97_record_shown (abi : Abi) (fmt : Fmt) (r r' : Rec) (s : Bytes) (h : r.toJson abi fmt = .ok s)
    (h' : r'.toJson abi fmt = .ok s) (hd : GetRecordTypeStr r.type ≠ b!"Unknown/Undocumented RecordType") :
    r.type = r'.type :=
  recordTypes_one _ _ ((json_type abi fmt r s h).symm.trans (json_type abi fmt r' s h')) hd

example : (Rec.make 0x85 [] .plain).toJson Abi.linux Fmt.zero = .ok b!"{\"Type\":\"BoundSheet8\",\"Length\":0}" := by
  decide +kernel

/-- The kind of a record is interpreted by the class of the name that is shown; the view of a chart sheet, whose number
is that of the view of a sheet, goes to the class of the former. -/
theorem C97_classes (type : Nat) (h : type ≠ 426) :
    (lookup biff8Classes type).getD b!"Unknown/Undocumented RecordType" = GetRecordTypeStr type := by
  have hk : biff8Classes.filter (fun e => decide (e.1 ≠ 426)) = recordTypes.filter (fun e => decide (e.1 ≠ 426)) := by
    decide +kernel
  have hf : ∀ t : List (Nat × Bytes), lookup (t.filter fun e => decide (e.1 ≠ 426)) type = lookup t type := by
    intro t
    unfold lookup
    congr 1
    induction t with
    | nil => rfl
    | cons e t ih =>
      by_cases he : e.1 = 426
      · rw [List.filter_cons_of_neg (by simpa using he), List.find?_cons_of_neg (by simp [he]; omega)]; exact ih
      · rw [List.filter_cons_of_pos (by simpa using he), List.find?_cons, List.find?_cons, ih]
  unfold GetRecordTypeStr
  rw [← hf biff8Classes, hk, hf]

/-- C97, property sets: the type of a property, and the name of a property in the summary and in the document summary. -/
theorem C97_properties :
    NamesOne PropertyTypeToString (fun pt => b!"Unknown Property Type (" ++ dec pt ++ b!")") ∧
    NamesOne (PropertyIdentifierToString .summary) (fun pi => b!"Unknown Property Identifier (" ++ dec pi ++ b!")") ∧
    NamesOne (PropertyIdentifierToString .docSummary) (fun pi => b!"Unknown Property Identifier (" ++ dec pi ++ b!")") := by
  refine ⟨namesOne propertyTypes (fun _ => rfl) (by decide +kernel) fun x => ?_,
    namesOne summaryNames (fun _ => rfl) (by decide +kernel) fun x => ?_,
    namesOne docSummaryNames (fun _ => rfl) (by decide +kernel) fun x => ?_⟩ <;>
  · rw [List.append_assoc]
    exact other_numbered _ (fun x => dec x ++ b!")") (by decide +kernel) x

/-- C97, executables: the machine, the subsystem and the processor. -/
theorem C97_executables :
    NamesOne GetMachineTypeString (fun _ => []) ∧ NamesOne GetSubsystemString (fun _ => []) ∧
    NamesOne MachO.cpuType2String (fun _ => []) :=
  ⟨namesOne_const execMachines [] (fun _ => rfl) (by decide +kernel) (by decide +kernel),
    namesOne_const execSubsystems [] (fun _ => rfl) (by decide +kernel) (by decide +kernel),
    namesOne_const machoCpuTypes [] (fun _ => rfl) (by decide +kernel) (by decide +kernel)⟩

/-- C97 is false of the characteristics of an executable: two different values are shown alike, since the name of bit 10
(run from the swap file if on a removable medium) is also shown for bit 6, which is reserved. -/
theorem C97_characteristics_wrong :
    BuildVectorFromMap execCharacteristics 0x40 = BuildVectorFromMap execCharacteristics 0x400 ∧
    BuildVectorFromMap execCharacteristics 0x400 ≠ [] := by decide +kernel

/-- C97 is false of the brands of media files: the third and the fourth version of the ISO format are shown alike. -/
theorem C97_brand_wrong :
    Media.GetBrandName b!"iso3" = Media.GetBrandName b!"iso4" ∧ Media.GetBrandName b!"iso3" ≠ b!"Unknonw FTYP" := by
  decide +kernel

/-- Apart from these two, a brand is shown by one name. -/
theorem C97_brands_partial (x y : Bytes) (h : Media.GetBrandName x = Media.GetBrandName y)
    (hx : Media.GetBrandName x ≠ b!"Unknonw FTYP") (h3 : x ≠ b!"iso3" ∨ y ≠ b!"iso4") (h4 : x ≠ b!"iso4" ∨ y ≠ b!"iso3") :
    x = y := by
  have hp : ∀ e ∈ mp4Brands, ∀ e' ∈ mp4Brands, e.2 = e'.2 → e.1 = e'.1 ∨ (e.1 = b!"iso3" ∧ e'.1 = b!"iso4") ∨
      (e.1 = b!"iso4" ∧ e'.1 = b!"iso3") := by decide +kernel
  have ho : ∀ e ∈ mp4Brands, e.2 ≠ b!"Unknonw FTYP" := by decide +kernel
  unfold Media.GetBrandName at h hx
  cases hlx : lookup mp4Brands x with
  | none => rw [hlx] at hx; exact absurd rfl hx
  | some n =>
    rw [hlx] at h
    cases hly : lookup mp4Brands y with
    | none => rw [hly] at h; exact absurd h (ho _ (lookup_mem hlx))
    | some m =>
      rw [hly] at h
      rcases hp _ (lookup_mem hlx) _ (lookup_mem hly) h with h1 | ⟨h1, h2⟩ | ⟨h1, h2⟩
      · exact h1
      · rcases h3 with h3 | h3
        · exact absurd h1 h3
        · exact absurd h2 h3
      · rcases h4 with h4 | h4
        · exact absurd h1 h4
        · exact absurd h2 h4

/-- C97, ASF: the kind of an object. -/
theorem C97_asf : NamesOne Asf.ASFTypeToString (fun _ => b!"Unknown") := by
  refine namesOne Asf.nameTable (fun x => ?_) (by decide +kernel) (fun _ => by decide +kernel)
  unfold Asf.ASFTypeToString
  generalize Asf.nameTable = t
  induction t with
  | nil => rfl
  | cons e t ih =>
    unfold Asf.typeToStringLoop lookup
    rw [List.find?_cons]
    by_cases h : x = e.1
    · subst h; simp
    · rw [if_neg h, decide_eq_false (fun hc => h hc.symm)]
      exact ih

example : GetRecordTypeStr 0x85 = b!"BoundSheet8" ∧ GetFunctionName_FTab 110 = b!"EXEC" ∧
    GetFunctionName_CeTab 54 = b!"EDIT.DELETE" ∧ CPToString 1252 ≠ b!"Unknown" ∧ GetCountryName 49 = b!"Germany" := by
  decide +kernel

end Fileid.Props
