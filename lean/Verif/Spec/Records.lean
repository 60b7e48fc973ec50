import Verif.Spec.Workbook
import Verif.Spec.Reader
import Verif.Spec.Formula
import Verif.Spec.ReportExcel

/-!
# What the records of a workbook say, independently of the model

Taken from MS-XLS 2.4: how some records are stored, and which facts they state. The facts are named as the program
names them.
-/

namespace Fileid.Spec.Biff

/-- A number made of bit fields (width and value), the lowest bits first. -/
def packed : List (Nat × Nat) → Nat
  | [] => 0
  | f :: fs => f.2 + 2 ^ f.1 * packed fs

def flag (b : Bool) : Nat × Nat := (1, b.toNat)

/-! ## Facts -/

/-- A fact stated by a record: a number, a text, a number and a text under one name, a list of texts (each with the tag
in XML), nothing but a name (in XML the tag), a list of numbers, or a colour. -/
inductive Fact
  | num (n : Nat)
  | text (s : Bytes)
  | pair (k₁ : Bytes) (n : Nat) (k₂ : Bytes) (s : Bytes)
  | texts (tag : Bytes) (l : List Bytes)
  | hollow (tag : Bytes)
  | nums (tag : Bytes) (l : List Nat)
  | color (red green blue reserved : Nat)

/-- The fact as a value in a JSON document. -/
def Fact.json : Fact → JVal
  | .num n => .nat n
  | .text s => .text s
  | .pair k₁ n k₂ s => .obj [(k₁, .nat n), (k₂, .text s)]
  | .texts _ l => .arr (l.map .text)
  | .hollow _ => .obj []
  | .nums _ l => .arr (l.map .nat)
  | .color r g b x => .obj [(b!"red", .nat r), (b!"green", .nat g), (b!"blue", .nat b), (b!"reserved", .nat x)]

/-- The fact as an element of an XML document. -/
def Fact.xml (key : Bytes) : Fact → XVal
  | .num n => .leaf key (dec n)
  | .text s => .leaf key s
  | .pair k₁ n k₂ s => .elem key [.leaf k₁ (dec n), .leaf k₂ s]
  | .texts tag l => .elem key (l.map (.leaf tag))
  | .hollow tag => .elem tag []
  | .nums tag l => .elem key (l.map fun n => .leaf tag (dec n))
  | .color r g b x => .elem key [.elem b!"LongRGB"
      [.leaf b!"red" (dec r), .leaf b!"green" (dec g), .leaf b!"blue" (dec b), .leaf b!"reserved" (dec x)]]

/-! ## Records -/

/-- 2.4.21 `BOF`: the beginning of a part of the workbook, and by which programs it was edited. -/
structure Bof where
  version : Nat
  kind : Nat
  build : Nat
  year : Nat
  windows : Bool
  risc : Bool
  beta : Bool
  anyWindows : Bool
  anyMac : Bool
  anyBeta : Bool
  anyRisc : Bool
  outOfMemory : Bool
  outOfMemoryRender : Bool
  fontLimit : Bool
  highest : Nat
  lowest : Nat
  last : Nat

def Bof.flags (b : Bof) : List (Nat × Nat) :=
  [flag b.windows, flag b.risc, flag b.beta, flag b.anyWindows, flag b.anyMac, flag b.anyBeta, (2, 0),
   flag b.anyRisc, flag b.outOfMemory, flag b.outOfMemoryRender, (2, 0), flag b.fontLimit, (4, b.highest)]

def Bof.data (b : Bof) : Bytes :=
  leBytes 2 b.version ++ leBytes 2 b.kind ++ leBytes 2 b.build ++ leBytes 2 b.year ++
  leBytes 4 (packed b.flags) ++ leBytes 4 (packed [(8, b.lowest), (4, b.last)])

/-- The kinds of parts. -/
def partKinds : List (Nat × Bytes) := [
  (0x0005, b!"Globals"), (0x0006, b!"VB Module"), (0x0010, b!"Sheet"), (0x0020, b!"Chart"), (0x0040, b!"Macro"),
  (0x0100, b!"Workspace")]

/-- 2.4.63 `Country`: the codes of countries. -/
def countryNames : List (Nat × Bytes) := [
  (1, b!"United States"), (2, b!"Canada"), (3, b!"Latin America, except Brazil"), (7, b!"Russia"), (20, b!"Egypt"),
  (30, b!"Greece"), (31, b!"Netherlands"), (32, b!"Belgium"), (33, b!"France"), (34, b!"Spain"), (36, b!"Hungary"),
  (39, b!"Italy"), (41, b!"Switzerland"), (43, b!"Austria"), (44, b!"United Kingdom"), (45, b!"Denmark"),
  (46, b!"Sweden"), (47, b!"Norway"), (48, b!"Poland"), (49, b!"Germany"), (52, b!"Mexico"), (55, b!"Brazil"),
  (61, b!"Australia"), (64, b!"New Zealand"), (66, b!"Thailand"), (81, b!"Japan"), (82, b!"Korea"), (84, b!"Viet Nam"),
  (86, b!"People's Republic of China"), (90, b!"Turkey"), (213, b!"Algeria"), (216, b!"Morocco"), (218, b!"Libya"),
  (351, b!"Portugal"), (354, b!"Iceland"), (358, b!"Finland"), (420, b!"Czech Republic"), (886, b!"Taiwan"),
  (961, b!"Lebanon"), (962, b!"Jordan"), (963, b!"Syria"), (964, b!"Iraq"), (965, b!"Kuwait"), (966, b!"Saudi Arabia"),
  (971, b!"United Arab Emirates"), (972, b!"Israel"), (974, b!"Qatar"), (981, b!"Iran")]

/-- Names of code pages, from Microsoft's list of code page identifiers. -/
def codePageNames : List (Nat × Bytes) := [
  (437, b!"OEM United States"), (850, b!"OEM Multilingual Latin 1; Western European (DOS)"),
  (852, b!"OEM Latin 2; Central European (DOS)"), (866, b!"OEM Russian; Cyrillic (DOS)"),
  (932, b!"ANSI/OEM Japanese; Japanese (Shift-JIS)"), (949, b!"ANSI/OEM Korean (Unified Hangul Code)"),
  (1200, b!"Unicode UTF-16, little endian byte order (BMP of ISO 10646)"),
  (1250, b!"ANSI Central European; Central European (Windows)"), (1251, b!"ANSI Cyrillic; Cyrillic (Windows)"),
  (1252, b!"ANSI Latin 1; Western European (Windows)"), (1253, b!"ANSI Greek; Greek (Windows)"),
  (1254, b!"ANSI Turkish; Turkish (Windows)"), (1255, b!"ANSI Hebrew; Hebrew (Windows)"),
  (1256, b!"ANSI Arabic; Arabic (Windows)"), (1257, b!"ANSI Baltic; Baltic (Windows)"),
  (1258, b!"ANSI/OEM Vietnamese; Vietnamese (Windows)"), (10000, b!"MAC Roman; Western European (Mac)")]

/-- A text of ASCII characters, stored with one byte or two bytes for each (2.5.293, 2.5.294). -/
structure XText where
  wide : Bool
  chars : Bytes

def XText.flags (t : XText) : UInt8 := if t.wide then 1 else 0
def XText.stored (t : XText) : Bytes := if t.wide then t.chars.flatMap (fun c => [c, 0]) else t.chars
def XText.Valid (t : XText) : Prop := t.chars.length < 2 ^ 16 ∧ ∀ c ∈ t.chars, 0 < c.toNat ∧ c.toNat < 128

/-- 2.5.294 `XLUnicodeString`; also 2.5.293 `XLUnicodeRichExtendedString` without formatting. -/
def XText.encode (t : XText) : Bytes := leBytes 2 t.chars.length ++ [t.flags] ++ t.stored

/-- 2.4.150 `Lbl`: a defined name. -/
structure Label where
  hidden : Bool
  function : Bool
  ob : Bool
  proc : Bool
  calcExp : Bool
  builtin : Bool
  group : Nat
  published : Bool
  parameter : Bool
  key : UInt8
  sheet : Nat
  name : Bytes

def Label.flags (l : Label) : List (Nat × Nat) :=
  [flag l.hidden, flag l.function, flag l.ob, flag l.proc, flag l.calcExp, flag l.builtin, (6, l.group), (1, 0),
   flag l.published, flag l.parameter]

/-- The name is stored with one byte for each character; the tokens of the formula follow it. -/
def Label.data (l : Label) (formula : Bytes) : Bytes :=
  leBytes 2 (packed l.flags) ++ [l.key, UInt8.ofNat l.name.length] ++ leBytes 2 formula.length ++ leBytes 2 0 ++
  leBytes 2 l.sheet ++ [0, 0, 0, 0] ++ [0] ++ l.name ++ formula

/-- The bytes are tokens one after the other. -/
def IsFormula (bs : Bytes) : Prop :=
  ∃ num names, ∃ toks : List (Bytes × Bytes), (∀ t ∈ toks, TokenText num names t.1 t.2) ∧ bs = toks.flatMap (·.1)

/-- What a record says. -/
inductive Content
  | bof (b : Bof)
  | codePage (n : Nat)
  | country (workbook system : Nat)
  /-- `WriteAccess`: who wrote the workbook; the record is filled up with blanks. -/
  | user (name : Bytes) (blanks : Nat)
  | codeName (name : Bytes)
  /-- `String`: the text a formula gives. -/
  | string (s : Bytes)
  | functionGroup (name : Bytes)
  | functionGroups (n : Nat)
  | sheet (d : SheetDecl)
  /-- `SST`: the number of uses and the texts. -/
  | sharedStrings (total : Nat) (l : List XText)
  | label (l : Label) (formula : Bytes)

def Content.type : Content → Nat
  | .bof _ => 0x0809
  | .codePage _ => 0x0042
  | .country .. => 0x008C
  | .user .. => 0x005C
  | .codeName _ => 0x01BA
  | .string _ => 0x0207
  | .functionGroup _ => 0x009A
  | .functionGroups _ => 0x009C
  | .sheet _ => 0x0085
  | .sharedStrings .. => 0x00FC
  | .label .. => 0x0018

/-- The names of the records in MS-XLS. -/
def Content.typeName : Content → Bytes
  | .bof _ => b!"BOF"
  | .codePage _ => b!"CodePage"
  | .country .. => b!"Country"
  | .user .. => b!"WriteAccess"
  | .codeName _ => b!"CodeName"
  | .string _ => b!"String"
  | .functionGroup _ => b!"FnGroupName"
  | .functionGroups _ => b!"BuiltInFnGroupCount"
  | .sheet _ => b!"BoundSheet8"
  | .sharedStrings .. => b!"SST"
  | .label .. => b!"Lbl"

def Content.data : Content → Bytes
  | .bof b => b.data
  | .codePage n => leBytes 2 n
  | .country a b => leBytes 2 a ++ leBytes 2 b
  | .user s k => leBytes 2 s.length ++ [0] ++ s ++ List.replicate k 32
  | .codeName s => leBytes 2 s.length ++ [0] ++ s
  | .string s => leBytes 2 s.length ++ [0] ++ s
  | .functionGroup s => leBytes 2 s.length ++ [0] ++ s
  | .functionGroups n => leBytes 2 n
  | .sheet d => d.record.data
  | .sharedStrings total l => leBytes 4 total ++ leBytes 4 l.length ++ l.flatMap XText.encode
  | .label l formula => l.data formula

/-- The values fit into their fields, codes are those of the lists, and the data fits into a record. -/
def Content.Valid (c : Content) : Prop := c.data.length < 2 ^ 16 ∧
  match c with
  | .bof b => b.version < 2 ^ 16 ∧ b.build < 2 ^ 16 ∧ b.year < 2 ^ 16 ∧ b.highest < 2 ^ 4 ∧ b.lowest < 2 ^ 8 ∧
      b.last < 2 ^ 4 ∧ ∃ e ∈ partKinds, e.1 = b.kind
  | .codePage n => ∃ e ∈ codePageNames, e.1 = n
  | .country a b => (∃ e ∈ countryNames, e.1 = a) ∧ ∃ e ∈ countryNames, e.1 = b
  | .functionGroups n => n < 2 ^ 16
  | .sheet d => d.Valid
  | .sharedStrings total l => total < 2 ^ 31 ∧ ∀ t ∈ l, t.Valid
  | .label l formula => l.name.length < 2 ^ 8 ∧ l.group < 2 ^ 6 ∧ l.sheet < 2 ^ 16 ∧ IsFormula formula
  | _ => True

/-- What the record says. A list without elements is left out. -/
def Content.facts : Content → List (Bytes × Fact)
  | .bof b => [
      (b!"Version", .num b.version), (b!"DocumentType", .num b.kind),
      (b!"DocumentTypeStr", .text (nameOf partKinds [] b.kind)), (b!"RUPBuild", .num b.build), (b!"RUPYear", .num b.year),
      (b!"LastEditWindows", .num b.windows.toNat), (b!"LastEditRisc", .num b.risc.toNat),
      (b!"LastEditBeta", .num b.beta.toNat), (b!"AnyEditWindows", .num b.anyWindows.toNat),
      (b!"AnyEditRisc", .num b.anyRisc.toNat), (b!"AnyEditMac", .num b.anyMac.toNat),
      (b!"AnyEditBeta", .num b.anyBeta.toNat), (b!"FailureOutOfMemory", .num b.outOfMemory.toNat),
      (b!"FailureOutOfMemoryRender", .num b.outOfMemoryRender.toNat), (b!"FontLimitHit", .num b.fontLimit.toNat),
      (b!"HighestXLVersion", .num b.highest), (b!"LowestBiff", .num b.lowest), (b!"LastSavedXLVersion", .num b.last)]
  | .codePage n => [(b!"CodePage", .num n), (b!"CodePageStr", .text (nameOf codePageNames [] n))]
  | .country a b => [
      (b!"WorkbookLocale", .pair b!"Code" a b!"Name" (nameOf countryNames [] a)),
      (b!"OSLocale", .pair b!"Code" b b!"Name" (nameOf countryNames [] b))]
  | .user s _ => [(b!"username", .text s)]
  | .codeName s => [(b!"CodeName", .text s)]
  | .string s => [(b!"String", .text s)]
  | .functionGroup s => [(b!"Name", .text s)]
  | .functionGroups n => [(b!"Count", .num n)]
  | .sheet d => [(b!"Name", .text d.name.text), (b!"State", .num (d.state.toNat % 4)), (b!"SheetType", .num d.kind.toNat)]
  | .sharedStrings total l => [(b!"cstTotal", .num total), (b!"cstUnique", .num l.length)] ++
      (if l = [] then [] else [(b!"strings", .texts b!"string" (l.map XText.chars))])
  | .label l formula => [
      (b!"fHidden", .num l.hidden.toNat), (b!"fFunc", .num l.function.toNat), (b!"fOB", .num l.ob.toNat),
      (b!"fProc", .num l.proc.toNat), (b!"fCalcExp", .num l.calcExp.toNat), (b!"fBuiltin", .num l.builtin.toNat),
      (b!"fGrp", .num l.group), (b!"reserved1", .num 0), (b!"fPublished", .num l.published.toNat),
      (b!"fWorkbookParam", .num l.parameter.toNat), (b!"chKey", .num l.key.toNat), (b!"cch", .num l.name.length),
      (b!"cce", .num formula.length), (b!"reserved3", .num 0), (b!"itab", .num l.sheet), (b!"reserved4", .num 0),
      (b!"reserved5", .num 0), (b!"reserved6", .num 0), (b!"reserved7", .num 0), (b!"name", .text l.name),
      (b!"namedparsedformula", .hollow b!"NameParsedFormula")]

def Content.record (c : Content) : Record := ⟨c.type, c.data⟩

/-- The record's entry in a JSON report. -/
def Content.json (c : Content) : JVal :=
  .obj ([(b!"Type", .text c.typeName), (b!"Length", .nat c.data.length)] ++ c.facts.map fun p => (p.1, p.2.json))

/-- The record's entry in an XML report. -/
def Content.xml (c : Content) : XVal :=
  .elem b!"Record" ([.leaf b!"Type" c.typeName, .leaf b!"Length" (dec c.data.length)] ++ c.facts.map fun p => p.2.xml p.1)

/-- All shared strings and the name of a sheet are stored with one byte for each character. -/
def Content.Narrow : Content → Prop
  | .sharedStrings _ l => ∀ t ∈ l, t.wide = false
  | .sheet d => d.Narrow
  | _ => True

/-- The texts in the record. -/
def Content.texts : Content → List Bytes
  | .user s _ => [s]
  | .codeName s => [s]
  | .string s => [s]
  | .functionGroup s => [s]
  | .sheet d => [d.name.text]
  | .sharedStrings _ l => l.map XText.chars
  | .label l _ => [l.name]
  | _ => []

/-- The texts that are written into the report without escaping: the names of the user and of a function group, and the
code name. -/
def Content.unescaped : Content → List Bytes
  | .user s _ => [s]
  | .codeName s => [s]
  | .functionGroup s => [s]
  | _ => []

/-- The texts of the record can be read from a JSON document: those written without escaping have no character that
needs it, and none contains a NUL. -/
def Content.InJson (c : Content) : Prop := (∀ s ∈ c.unescaped, Report.Clear s) ∧ ∀ s ∈ c.texts, 0 ∉ s

/-- The texts of the record can be read from an XML document: those written without escaping have no character that
needs it, the text of a `String` record (escaped although it stands in a CDATA section) neither, and the others have
only characters that are legal in XML and no angle brackets (each is written as the other). -/
def Content.InXml (c : Content) : Prop :=
  match c with
  | .user s _ | .codeName s | .functionGroup s => Report.Clear s
  | .string s => Report.Clear s ∧ 39 ∉ s
  | c => ∀ s ∈ c.texts, Report.LegalText s ∧ 60 ∉ s ∧ 62 ∉ s

/-! ## Complete records -/

/-- The sizes of the data of some records: WinProtect, LabelSst, Blank, BoolErr, Row, RK, AreaFormat. -/
def sizes : List (Nat × Nat) :=
  [(0x0019, 2), (0x00FD, 10), (0x0201, 6), (0x0205, 8), (0x0208, 16), (0x027E, 10), (0x100A, 16)]

/-- The record has all the data its kind needs, as far as the program interprets it. `wide` says whether texts of two
bytes for each character are allowed where the program reads them as wide characters. -/
inductive Whole (wide : Prop) : Record → Prop
  /-- Records that are not interpreted. -/
  | other {r : Record} : r.type ∉ interpreted → Whole wide r
  /-- The beginning of a part of the workbook. -/
  | bof {r : Record} : r.type = bofType → Whole wide r
  | continuation {r : Record} : r.type = continueType → Whole wide r
  | sized {r : Record} {n : Nat} : (r.type, n) ∈ sizes → n ≤ r.data.length → Whole wide r
  /-- 2.4.127 `Formula`: a cell, a value, flags, and the tokens of a formula. -/
  | formula {head formula : Bytes} : head.length = 20 → IsFormula formula →
      Whole wide ⟨0x0006, head ++ leBytes 2 formula.length ++ formula⟩
  /-- 2.4.174 `MulBlank`: the formats of several blank cells. -/
  | blanks {row column : Nat} {formats : List Nat} : 0 < formats.length → column + formats.length < 2 ^ 16 →
      Whole wide ⟨0x00BE, leBytes 2 row ++ leBytes 2 column ++ formats.flatMap (leBytes 2) ++
        leBytes 2 (column + formats.length - 1)⟩
  /-- 2.4.4 `AlRuns`: the formats of parts of a text. -/
  | runs {runs : List (Nat × Nat)} : runs.length < 2 ^ 16 →
      Whole wide ⟨0x1050, leBytes 2 runs.length ++ runs.flatMap fun x => leBytes 2 x.1 ++ leBytes 2 x.2⟩
  /-- 2.4.271 `SupBook` for the workbook itself. -/
  | self {sheets : Nat} : Whole wide ⟨0x01AE, leBytes 2 sheets ++ leBytes 2 0x0401⟩
  /-- 2.4.271 `SupBook` for another workbook: the number of its sheets, its path, and whatever follows. -/
  | book {sheets : Nat} {path rest : Bytes} : 0 < path.length → path.length < 2 ^ 8 →
      Whole wide ⟨0x01AE, leBytes 2 sheets ++ leBytes 2 path.length ++ [0] ++ path ++ rest⟩
  /-- 2.4.105 `ExternName`: flags, a name, and whatever follows. -/
  | extern {flags : Nat} {name rest : Bytes} : name.length < 2 ^ 8 →
      Whole wide ⟨0x0023, leBytes 2 flags ++ [0, 0, 0, 0, UInt8.ofNat name.length, 0] ++ name ++ rest⟩
  | content {c : Content} : c.Valid → (c.Narrow ∨ wide) → Whole wide c.record

end Fileid.Spec.Biff
