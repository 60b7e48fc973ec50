import Verif.Spec.Pass
import Verif.Spec.Excel

/-!
# Further records of a workbook, independently of the model

Taken from MS-XLS 2.4: records of which the program shows some facts wrongly. The facts are named as the program names
them.
-/

namespace Fileid.Spec.Biff

/-- 2.4.221 `Row`: the columns in use and the format of a row. `unused` is whatever stands in bytes 10 and 11. -/
structure Row where
  row : Nat
  first : Nat
  last : Nat
  height : Nat
  unused : Nat
  level : Nat
  collapsed : Bool
  hidden : Bool
  manual : Bool
  formatted : Bool
  format : Nat
  above : Bool
  below : Bool
  phonetic : Bool

def Row.flags (r : Row) : List (Nat × Nat) :=
  [(3, r.level), (1, 0), flag r.collapsed, flag r.hidden, flag r.manual, flag r.formatted]

def Row.style (r : Row) : List (Nat × Nat) := [(12, r.format), flag r.above, flag r.below, flag r.phonetic, (1, 0)]

def Row.data (r : Row) : Bytes :=
  leBytes 2 r.row ++ leBytes 2 r.first ++ leBytes 2 r.last ++ leBytes 2 r.height ++ leBytes 2 0 ++ leBytes 2 r.unused ++
  [UInt8.ofNat (packed r.flags), 1] ++ leBytes 2 (packed r.style)

def Row.Valid (r : Row) : Prop :=
  r.row < 2 ^ 16 ∧ r.first < 2 ^ 16 ∧ r.last < 2 ^ 16 ∧ r.height < 2 ^ 16 ∧ r.unused < 2 ^ 16 ∧ r.level < 2 ^ 3 ∧ r.format < 2 ^ 12

/-- 2.4.6 `AreaFormat`: pattern and colours of a filled region of a chart. -/
structure Area where
  fore : UInt8 × UInt8 × UInt8
  back : UInt8 × UInt8 × UInt8
  pattern : Nat
  auto : Bool
  invert : Bool
  foreIndex : Nat
  backIndex : Nat

def Area.data (a : Area) : Bytes :=
  [a.fore.1, a.fore.2.1, a.fore.2.2, 0] ++ [a.back.1, a.back.2.1, a.back.2.2, 0] ++ leBytes 2 a.pattern ++
  leBytes 2 (packed [flag a.auto, flag a.invert, (14, 0)]) ++ leBytes 2 a.foreIndex ++ leBytes 2 a.backIndex

def Area.Valid (a : Area) : Prop := a.pattern < 2 ^ 16 ∧ a.foreIndex < 2 ^ 16 ∧ a.backIndex < 2 ^ 16

/-- Records of which something is shown. -/
inductive Other
  /-- `WinProtect`: whether the windows of the workbook may not be moved. -/
  | protect (locked : Bool)
  | row (r : Row)
  | area (a : Area)
  /-- `MulBlank`: the formats of blank cells, one beside the other. -/
  | blanks (row column : Nat) (formats : List Nat)
  /-- `RK`: a cell with a whole number, or one in hundredths (30 bits in two's complement). -/
  | number (row column format : Nat) (hundredths : Bool) (value : Nat)
  /-- `SupBook` for references to the workbook itself. -/
  | self (sheets : Nat)

def Other.type : Other → Nat
  | .protect _ => 0x0019
  | .row _ => 0x0208
  | .area _ => 0x100A
  | .blanks .. => 0x00BE
  | .number .. => 0x027E
  | .self _ => 0x01AE

def Other.typeName : Other → Bytes
  | .protect _ => b!"WinProtect"
  | .row _ => b!"Row"
  | .area _ => b!"AreaFormat"
  | .blanks .. => b!"MulBlank"
  | .number .. => b!"RK"
  | .self _ => b!"SupBook"

def Other.data : Other → Bytes
  | .protect b => leBytes 2 b.toNat
  | .row r => r.data
  | .area a => a.data
  | .blanks line column formats => leBytes 2 line ++ leBytes 2 column ++ formats.flatMap (leBytes 2) ++ leBytes 2 (column + formats.length - 1)
  | .number line column format hundredths value =>
      leBytes 2 line ++ leBytes 2 column ++ leBytes 2 format ++ leBytes 4 (packed [flag hundredths, (1, 1), (30, value)])
  | .self sheets => leBytes 2 sheets ++ leBytes 2 0x0401

def Other.Valid (o : Other) : Prop := o.data.length < 2 ^ 16 ∧
  match o with
  | .protect _ => True
  | .row r => r.Valid
  | .area a => a.Valid
  | .blanks line column formats => line < 2 ^ 16 ∧ column + formats.length < 2 ^ 16 ∧ 0 < formats.length ∧ ∀ f ∈ formats, f < 2 ^ 16
  | .number line column format _ value => line < 2 ^ 16 ∧ column < 2 ^ 16 ∧ format < 2 ^ 16 ∧ value < 2 ^ 30
  | .self sheets => sheets < 2 ^ 16

def Other.record (o : Other) : Record := ⟨o.type, o.data⟩

/-- Facts are shown for the record, together with its type and length. -/
def Other.json (o : Other) (facts : List (Bytes × Fact)) : JVal :=
  .obj ([(b!"Type", .text o.typeName), (b!"Length", .nat o.data.length)] ++ factsJ facts)

def Other.xml (o : Other) (facts : List (Bytes × Fact)) : XVal :=
  .elem b!"Record" ([.leaf b!"Type" o.typeName, .leaf b!"Length" (dec o.data.length)] ++ factsX facts)

/-- The letters of a zero-based column. -/
def ColumnLetters (letters : Bytes) (column : Nat) : Prop := IsColumnName letters ∧ columnNumber letters = column + 1

/-- What the record says. -/
inductive Other.Facts : Other → List (Bytes × Fact) → Prop
  | protect {b : Bool} : Facts (.protect b) [(b!"fLockWn", .num b.toNat)]
  | row {r : Row} : Facts (.row r) [
      (b!"rw", .num r.row), (b!"colMic", .num r.first), (b!"colMac", .num r.last), (b!"miyRw", .num r.height),
      (b!"reserved1", .num 0), (b!"unused1", .num r.unused), (b!"iOutlevel", .num r.level), (b!"reserved2", .num 0),
      (b!"fCollapsed", .num r.collapsed.toNat), (b!"fDyZero", .num r.hidden.toNat), (b!"fUnsynced", .num r.manual.toNat),
      (b!"fGhostDirty", .num r.formatted.toNat), (b!"reserved3", .num 1), (b!"ixfe_val", .num r.format),
      (b!"fExAsc", .num r.above.toNat), (b!"fExDes", .num r.below.toNat), (b!"fPhonetic", .num r.phonetic.toNat),
      (b!"unused", .num 0)]
  | area {a : Area} : Facts (.area a) [
      (b!"rgbFore", .color a.fore.1.toNat a.fore.2.1.toNat a.fore.2.2.toNat 0),
      (b!"rgbBack", .color a.back.1.toNat a.back.2.1.toNat a.back.2.2.toNat 0),
      (b!"fls", .num a.pattern), (b!"A", .num a.auto.toNat), (b!"B", .num a.invert.toNat), (b!"reserved", .num 0),
      (b!"ivcFore", .num a.foreIndex), (b!"ivcBack", .num a.backIndex)]
  | blanks {row column : Nat} {formats : List Nat} {first last : Bytes} :
      ColumnLetters first column → ColumnLetters last (column + formats.length - 1) →
      Facts (.blanks row column formats)
        [(b!"rw", .num row), (b!"colFirst", .text first), (b!"colLast", .text last), (b!"rgixfe", .nums b!"ixfe" formats)]
  | number {row column format : Nat} {value : Nat} {cell : Bytes} : NamesCell cell row column → value < 2 ^ 29 →
      Facts (.number row column format false value) [
        (b!"rw", .num row), (b!"col", .num column), (b!"ixfe", .num format), (b!"fX100", .num 0), (b!"fInt", .num 1),
        (b!"num", .num value), (b!"Cell", .text cell), (b!"Value", .num value)]
  | self {sheets : Nat} : Facts (.self sheets) [(b!"ctab", .num sheets), (b!"cch", .num 0x0401)]

/-- The two bytes of a number, swapped. -/
def swapped (n : Nat) : Nat := n % 256 * 256 + n / 256

/-- What the program shows of the record. -/
inductive Other.Shown : Other → List (Bytes × Fact) → Prop
  /-- The bytes are swapped. -/
  | protect {b : Bool} : Shown (.protect b) [(b!"fLockWn", .num (swapped b.toNat))]
  /-- Five numbers are read two bytes behind their place and with swapped bytes; the format begins four bits too late. -/
  | row {r : Row} : Shown (.row r) [
      (b!"rw", .num r.row), (b!"colMic", .num (swapped r.last)), (b!"colMac", .num (swapped r.height)), (b!"miyRw", .num 0),
      (b!"reserved1", .num (swapped r.unused)), (b!"unused1", .num (256 * packed r.flags + 1)), (b!"iOutlevel", .num r.level),
      (b!"reserved2", .num 0), (b!"fCollapsed", .num r.collapsed.toNat), (b!"fDyZero", .num r.hidden.toNat),
      (b!"fUnsynced", .num r.manual.toNat), (b!"fGhostDirty", .num r.formatted.toNat), (b!"reserved3", .num 1),
      (b!"ixfe_val", .num (packed r.style / 16)), (b!"fExAsc", .num r.above.toNat), (b!"fExDes", .num r.below.toNat),
      (b!"fPhonetic", .num r.phonetic.toNat), (b!"unused", .num 0)]
  /-- The bytes of three numbers are swapped, and the flags are also shown as a reserved number. -/
  | area {a : Area} : Shown (.area a) [
      (b!"rgbFore", .color a.fore.1.toNat a.fore.2.1.toNat a.fore.2.2.toNat 0),
      (b!"rgbBack", .color a.back.1.toNat a.back.2.1.toNat a.back.2.2.toNat 0),
      (b!"fls", .num (swapped a.pattern)), (b!"A", .num a.auto.toNat), (b!"B", .num a.invert.toNat),
      (b!"reserved", .num (a.auto.toNat + 2 * a.invert.toNat)),
      (b!"ivcFore", .num (swapped a.foreIndex)), (b!"ivcBack", .num (swapped a.backIndex))]
  /-- The columns are those to the left. -/
  | blanks {row column : Nat} {formats : List Nat} {first last : Bytes} :
      (∀ c ∈ first ++ last, 65 ≤ c ∧ c ≤ 90) → columnNumber first = column → columnNumber last = column + formats.length - 1 →
      Shown (.blanks row column formats)
        [(b!"rw", .num row), (b!"colFirst", .text first), (b!"colLast", .text last), (b!"rgixfe", .nums b!"ixfe" formats)]
  /-- The cell is the one to the left, and hundredths are cut off. -/
  | number {row column format : Nat} {hundredths : Bool} {value : Nat} {letters : Bytes} :
      (∀ c ∈ letters, 65 ≤ c ∧ c ≤ 90) → columnNumber letters = column →
      Shown (.number row column format hundredths value) [
        (b!"rw", .num row), (b!"col", .num column), (b!"ixfe", .num format), (b!"fX100", .num hundredths.toNat), (b!"fInt", .num 1),
        (b!"num", .num value), (b!"Cell", .text (letters ++ dec (row + 1))),
        (b!"Value", .num (if hundredths then value / 100 else value))]
  /-- Nothing is wrong. -/
  | self {sheets : Nat} : Shown (.self sheets) [(b!"ctab", .num sheets), (b!"cch", .num 0x0401)]

/-- 2.4.105 `ExternName`: the flags of a name in another workbook. -/
structure Extern where
  builtin : Bool
  advise : Bool
  picture : Bool
  ole : Bool
  oleLink : Bool
  format : Nat
  icon : Bool

def Extern.flags (x : Extern) : List (Nat × Nat) :=
  [flag x.builtin, flag x.advise, flag x.picture, flag x.ole, flag x.oleLink, (10, x.format), flag x.icon]

/-- The flags, a name stored with one byte for each character, and whatever follows. -/
def Extern.data (x : Extern) (name rest : Bytes) : Bytes :=
  leBytes 2 (packed x.flags) ++ [0, 0, 0, 0, UInt8.ofNat name.length, 0] ++ name ++ rest

/-- 2.4.127 `Formula`: what stands between the value and the formula. `cache` is of no importance. -/
structure FormulaFlags where
  always : Bool
  fill : Bool
  shared : Bool
  clear : Bool
  cache : Nat

def FormulaFlags.flags (f : FormulaFlags) : List (Nat × Nat) :=
  [flag f.always, (1, 0), flag f.fill, flag f.shared, (1, 0), flag f.clear, (10, 0)]

def FormulaFlags.data (f : FormulaFlags) : Bytes := leBytes 2 (packed f.flags) ++ leBytes 4 f.cache

end Fileid.Spec.Biff
