import Verif.Spec.Excel

/-!
# Workbook streams, independently of the model

Taken from MS-XLS 2.1.4 and 2.1.7: a workbook stream is a sequence of records, each a type, the length of its data
and the data. A `BOF` record begins a substream; the first substream describes the workbook, and its `BoundSheet8`
records tell where the substreams of the sheets begin.
-/

namespace Fileid.Spec.Biff

/-- A record. -/
structure Record where
  type : Nat
  data : Bytes
  deriving DecidableEq, Repr

/-- Type and length are 16 bits wide. -/
def Record.Valid (r : Record) : Prop := r.type < 2 ^ 16 ∧ r.data.length < 2 ^ 16

/-- A record as it is stored. -/
def Record.bytes (r : Record) : Bytes := leBytes 2 r.type ++ leBytes 2 r.data.length ++ r.data

/-- Records as they are stored. -/
def stream (rs : List Record) : Bytes := (rs.map Record.bytes).flatten

/-- The types of records that begin a substream, in BIFF2, BIFF3, BIFF4, and BIFF5 and BIFF8. -/
def bofTypes : List Nat := [0x0009, 0x0209, 0x0409, 0x0809]

def bofType : Nat := 0x0809
def filePassType : Nat := 0x002F
def continueType : Nat := 0x003C
def boundSheetType : Nat := 0x0085

/-- The record types of BIFF8 whose data the program interprets: Formula, Lbl, WinProtect, ExternName, FilePass,
Continue, CodePage, WriteAccess, BoundSheet8, Country, FnGroupName, BuiltInFnGroupCount, MulBlank, SST, LabelSst,
SupBook, CodeName, Blank, BoolErr, String, Row, RK, BOF, AreaFormat, AlRuns. -/
def interpreted : List Nat :=
  [0x0006, 0x0018, 0x0019, 0x0023, 0x002F, 0x003C, 0x0042, 0x005C, 0x0085, 0x008C, 0x009A, 0x009C, 0x00BE, 0x00FC,
   0x00FD, 0x01AE, 0x01BA, 0x0201, 0x0205, 0x0207, 0x0208, 0x027E, 0x0809, 0x100A, 0x1050]

/-- The data of the `Continue` records a list begins with. -/
def continuation : List Record → Bytes
  | [] => []
  | r :: rs => if r.type = continueType then r.data ++ continuation rs else []

/-- Every record's type and length, and its data together with that of the `Continue` records behind it. -/
def contents : List Record → List (Nat × Nat × Bytes)
  | [] => []
  | r :: rs =>
    (r.type, r.data.length, if r.type = continueType then r.data else r.data ++ continuation rs) :: contents rs

/-- The version number in the data of a `BOF` record. -/
def bofVersion (data : Bytes) : Nat := littleEndian (data.take 2)

end Fileid.Spec.Biff

namespace Fileid.Spec.Biff

/-- The name of a sheet (2.5.240): stored with one byte for each character or, for characters that need it, with
two. -/
inductive SheetName
  | narrow (bs : Bytes)
  | wide (cs : List Char)
  deriving DecidableEq, Repr

def SheetName.count : SheetName → Nat
  | .narrow bs => bs.length
  | .wide cs => cs.length

def SheetName.flags : SheetName → UInt8
  | .narrow _ => 0
  | .wide _ => 1

def SheetName.stored : SheetName → Bytes
  | .narrow bs => bs
  | .wide cs => cs.flatMap fun c => leBytes 2 c.toNat

/-- The name as text: the bytes themselves, or the characters in UTF-8. -/
def SheetName.text : SheetName → Bytes
  | .narrow bs => bs
  | .wide cs => cs.flatMap String.utf8EncodeChar

/-- The length fits into a byte; a character of a wide name fits into two. -/
def SheetName.Valid (n : SheetName) : Prop := n.count < 256 ∧ ∀ cs, n = .wide cs → ∀ c ∈ cs, c.toNat < 2 ^ 16

/-- What a `BoundSheet8` record declares (MS-XLS 2.4.28): where the sheet's substream begins, whether it is hidden,
its kind, and its name. -/
structure SheetDecl where
  offset : Nat
  state : UInt8
  kind : UInt8
  name : SheetName
  deriving DecidableEq, Repr

def SheetDecl.Valid (d : SheetDecl) : Prop := d.offset < 2 ^ 32 ∧ d.name.Valid

/-- The name is stored with one byte for each character. -/
def SheetDecl.Narrow (d : SheetDecl) : Prop := ∃ bs, d.name = .narrow bs

def SheetDecl.record (d : SheetDecl) : Record :=
  ⟨boundSheetType, leBytes 4 d.offset ++ [d.state, d.kind, UInt8.ofNat d.name.count, d.name.flags] ++ d.name.stored⟩

/-- A record of the substream that describes the workbook. -/
inductive GlobalRec
  | sheet (d : SheetDecl)
  | other (r : Record)

def GlobalRec.record : GlobalRec → Record
  | .sheet d => d.record
  | .other r => r

/-- The sheets that are declared. -/
def declared : List GlobalRec → List SheetDecl
  | [] => []
  | .sheet d :: gs => d :: declared gs
  | .other _ :: gs => declared gs

/-- Where each substream begins, if the first does at `p`. -/
def starts (p : Nat) : List (List Record) → List (Nat × List Record)
  | [] => []
  | s :: ss => (p, s) :: starts (p + (stream s).length) ss

/-- A workbook: its description, which begins with a `BOF` record of BIFF8, and the substreams of its sheets, each
beginning with a `BOF` record and each declared once. -/
structure Workbook where
  bof : Record
  globals : List GlobalRec
  sheets : List (List Record)

/-- The records that describe the workbook. -/
def Workbook.head (w : Workbook) : List Record := w.bof :: w.globals.map GlobalRec.record

def Workbook.records (w : Workbook) : List Record := w.head ++ w.sheets.flatten

/-- Where the substreams of the sheets begin. -/
def Workbook.starts (w : Workbook) : List (Nat × List Record) := Biff.starts (stream w.head).length w.sheets

structure Workbook.Valid (w : Workbook) : Prop where
  records : ∀ r ∈ w.records, r.Valid ∧ r.type ≠ filePassType
  bof : w.bof.type ∈ bofTypes ∧ 2 ≤ w.bof.data.length ∧ bofVersion w.bof.data = 0x0600
  decls : ∀ d, GlobalRec.sheet d ∈ w.globals → d.Valid
  others : ∀ r, GlobalRec.other r ∈ w.globals → r.type ∉ bofTypes ∧ r.type ≠ boundSheetType
  begins : ∀ s ∈ w.sheets, ∃ b body, s = b :: body ∧ b.type = bofType
  sheets : ∀ s ∈ w.sheets, ∀ r ∈ s, r.type ≠ boundSheetType
  distinct : ((declared w.globals).map SheetDecl.offset).Nodup
  found : ∀ p ∈ w.starts, ∃ d ∈ declared w.globals, d.offset = p.1
  meant : ∀ d ∈ declared w.globals, ∃ s, (d.offset, s) ∈ w.starts

end Fileid.Spec.Biff
