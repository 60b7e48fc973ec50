import Verif.Spec.RecordsMore
import Verif.Spec.Functions
import Verif.Spec.Formula

/-!
# The report about a workbook, independently of the model
-/

namespace Fileid.Spec.Biff

open Report

/-- The kinds of sheets (MS-XLS 2.4.28). -/
def sheetKinds : List (Nat × Bytes) :=
  [(0, b!"Worksheet/Dialog"), (1, b!"Macro sheet"), (2, b!"Chart sheet"), (6, b!"VBA Module")]

/-- Whether a sheet is hidden (MS-XLS 2.4.28). -/
def visibilities : List (Nat × Bytes) := [(0, b!"Visible"), (1, b!"Hidden"), (2, b!"Very Hidden")]

def SheetDecl.kindName (d : SheetDecl) : Bytes := nameOf sheetKinds b!"Unknown/Undocumented type" d.kind.toNat

def SheetDecl.visibility (d : SheetDecl) : Bytes :=
  nameOf visibilities b!"Unknown/Undocumented visiblitiy" (d.state.toNat % 4)

def Record.kindName (r : Record) : Bytes := nameOf recordNames b!"Unknown/Undocumented RecordType" r.type

/-- 2.4.127 `Formula`: a cell with a formula, given by its tokens and the texts they are shown as, and the value it had
when the workbook was saved (8 bytes). -/
structure FormulaCell where
  row : Nat
  column : Nat
  format : Nat
  value : Bytes
  flags : FormulaFlags
  tokens : List (Bytes × Bytes)

def FormulaCell.rgce (f : FormulaCell) : Bytes := f.tokens.flatMap (·.1)

def FormulaCell.data (f : FormulaCell) : Bytes :=
  leBytes 2 f.row ++ leBytes 2 f.column ++ leBytes 2 f.format ++ f.value ++ f.flags.data ++ leBytes 2 f.rgce.length ++ f.rgce

def FormulaCell.record (f : FormulaCell) : Record := ⟨0x0006, f.data⟩

/-- The formula as it is shown. -/
def FormulaCell.formula (f : FormulaCell) : Bytes := joined (f.tokens.map (·.2))

/-- A formula whose tokens have texts (`num` writes a floating point number, `names` tells the names the workbook
defines). -/
structure FormulaCell.Valid (num : Nat → Bytes) (names : Nat → Nat → Option Bytes) (f : FormulaCell) : Prop where
  row : f.row < 2 ^ 16
  column : f.column < 2 ^ 16 - 1
  format : f.format < 2 ^ 16
  value : f.value.length = 8
  tokens : ∀ t ∈ f.tokens, TokenText num names t.1 t.2
  size : f.data.length < 2 ^ 16

/-- What the program shows of the cell besides its value and formula. The fields `rw` to `itab` come from bytes without
meaning (C96). -/
def FormulaCell.facts (f : FormulaCell) (cell : Bytes) : List (Bytes × Fact) := [
  (b!"fAlwaysCalc", .num f.flags.always.toNat), (b!"fCaclOnLoad", .num 0), (b!"fFill", .num f.flags.fill.toNat),
  (b!"fShrFmla", .num f.flags.shared.toNat), (b!"fNeedBuild", .num 0), (b!"fClearErrors", .num f.flags.clear.toNat),
  (b!"reserved3", .num 0), (b!"rw", .num (f.flags.cache % 65536)), (b!"col", .num (f.flags.cache / 65536 % 256)),
  (b!"fIamNotTop", .num (f.flags.cache / 16777216 % 2)), (b!"fNotNull", .num (f.flags.cache / 33554432 % 2)),
  (b!"fEnt", .num (f.flags.cache / 67108864 % 2)), (b!"itab", .num (f.flags.cache / 134217728 % 32)), (b!"Cell", .text cell)]

def FormulaCell.json (f : FormulaCell) (cell value : Bytes) : JVal :=
  .obj ([(b!"Type", .text b!"Formula"), (b!"Length", .nat f.data.length)] ++
    (factsJ (f.facts cell) ++ [(b!"Value", .text value), (b!"FormulaString", .text f.formula)]))

def FormulaCell.xml (f : FormulaCell) (cell value : Bytes) : XVal :=
  .elem b!"Record" ([.leaf b!"Type" b!"Formula", .leaf b!"Length" (dec f.data.length)] ++
    (factsX (f.facts cell) ++ [.leaf b!"Value" value, .leaf b!"FormulaString" f.formula]))

/-- The record has this entry in a JSON report: what it says (`content`), what the program takes from it (`other`), the
cell, value and formula (`formula`), or nothing but its type and length. `num` writes a floating point number, `wide`
says whether texts of two bytes for each character can be read, `names` tells the names the workbook defines. -/
inductive Entry (num : Nat → Bytes) (wide : Prop) (names : Nat → Nat → Option Bytes) : Record → JVal → Prop
  | content {c : Content} : c.Valid → (c.Narrow ∨ wide) → (∀ b, c = .bof b → b.highest < 2) → c.InJson →
      Entry num wide names c.record c.json
  | other {o : Other} {facts : List (Bytes × Fact)} : o.Valid → Other.Shown o facts → Entry num wide names o.record (o.json facts)
  | formula {f : FormulaCell} {cell value : Bytes} : f.Valid num names → NamesCell cell f.row f.column →
      FormulaValueText num f.value value → 0 ∉ value → 0 ∉ f.formula → Entry num wide names f.record (f.json cell value)
  | plain {r : Record} : r.type ∉ interpreted → r.type ∉ bofTypes →
      Entry num wide names r (.obj [(b!"Type", .text r.kindName), (b!"Length", .nat r.data.length)])

/-- The record has this entry in an XML report. -/
inductive EntryX (num : Nat → Bytes) (wide : Prop) (names : Nat → Nat → Option Bytes) : Record → XVal → Prop
  | content {c : Content} : c.Valid → (c.Narrow ∨ wide) → (∀ b, c = .bof b → b.highest < 2) → c.InXml →
      EntryX num wide names c.record c.xml
  | other {o : Other} {facts : List (Bytes × Fact)} : o.Valid → Other.Shown o facts → EntryX num wide names o.record (o.xml facts)
  | formula {f : FormulaCell} {cell value : Bytes} : f.Valid num names → NamesCell cell f.row f.column →
      FormulaValueText num f.value value → (∀ s ∈ [value, f.formula], LegalText s ∧ 60 ∉ s ∧ 62 ∉ s) →
      EntryX num wide names f.record (f.xml cell value)
  | plain {r : Record} : r.type ∉ interpreted → r.type ∉ bofTypes →
      EntryX num wide names r (.elem b!"Record" [.leaf b!"Type" r.kindName, .leaf b!"Length" (dec r.data.length)])

/-- The entry of a sheet: what is declared of it, and the entries of the records of its substream. -/
def SheetDecl.json (d : SheetDecl) (records : List JVal) : JVal :=
  .obj [(b!"Name", .text d.name.text), (b!"Type", .text d.kindName), (b!"Visiblity", .text d.visibility),
    (b!"Offset", .nat d.offset), (b!"Records", .arr records)]

def SheetDecl.xml (d : SheetDecl) (records : List XVal) : XVal :=
  .elem b!"Sheet" [.leaf b!"Name" d.name.text, .leaf b!"Type" d.kindName, .leaf b!"Visiblity" d.visibility,
    .leaf b!"Offset" (dec d.offset), .elem b!"Records" records]

/-- 2.4.150 `Lbl`: the name it defines, if it is stored with one byte for each character. -/
def Record.definedName (r : Record) : Option Bytes :=
  if r.data.getD 14 1 = 0 then some ((r.data.drop 15).take (r.data.getD 3 0).toNat) else none

/-- The names the workbook defines, by the type of the defining record and its number among those. -/
def Workbook.definedNames (w : Workbook) (type i : Nat) : Option Bytes :=
  if type = 0x0018 then (((w.globals.map GlobalRec.record).filter (fun r => r.type = 0x0018))[i]?).bind Record.definedName else none

/-- No cell stands among the records that describe the workbook. -/
def Workbook.CellsInSheets (w : Workbook) : Prop := ∀ g ∈ w.globals, g.record.type ≠ 0x0006

/-- What a JSON report tells of the workbook besides its type: the records that describe it, and the declared sheets
with the records of their substreams, all in their order. -/
def Workbook.Shown (num : Nat → Bytes) (wide : Prop) (w : Workbook) (ms : List (Bytes × JVal)) : Prop :=
  ∃ heads sheets, Pointwise (Entry num wide w.definedNames) w.head heads ∧
    Pointwise (fun d v => ∃ rs vs, (d.offset, rs) ∈ w.starts ∧ Pointwise (Entry num wide w.definedNames) rs vs ∧ v = d.json vs)
      (declared w.globals) sheets ∧
    ms = (b!"globals", .obj [(b!"Records", .arr heads)]) :: listed b!"sheets" sheets

/-- The same for XML. -/
def Workbook.ShownX (num : Nat → Bytes) (wide : Prop) (w : Workbook) (vs : List XVal) : Prop :=
  ∃ heads sheets, Pointwise (EntryX num wide w.definedNames) w.head heads ∧
    Pointwise (fun d v => ∃ rs vs, (d.offset, rs) ∈ w.starts ∧ Pointwise (EntryX num wide w.definedNames) rs vs ∧ v = d.xml vs)
      (declared w.globals) sheets ∧
    vs = .elem b!"globals" [.elem b!"Records" heads] :: filled b!"sheets" sheets

/-- The bytes are those of the workbook, as a stream may hold them: its records and one to four bytes after them. All its
records have entries. -/
structure Workbook.Stored (num : Nat → Bytes) (wide : Prop) (w : Workbook) (content : Bytes) : Prop where
  valid : w.Valid
  cells : w.CellsInSheets
  names : ∀ d ∈ declared w.globals, (d.Narrow ∨ wide) ∧ 0 ∉ d.name.text
  entries : ∀ r ∈ w.records, ∃ v, Entry num wide w.definedNames r v
  bytes : ∃ tail, content = stream w.records ++ tail ∧ 0 < tail.length ∧ tail.length ≤ 4
  size : content.length + 4 ≤ 2 ^ 32

/-- What is told of every BIFF8 workbook. -/
def biff8 : Common.ExtInfo :=
  { Extension := b!"xls", Name := b!"Microsoft Office Excel Workbook", SubType := b!"BIFF8", Version := 0x0600,
    VersionName := b!"BIFF8" }

end Fileid.Spec.Biff
