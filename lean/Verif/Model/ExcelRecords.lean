import Verif.Model.Excel

/-!
# Model of `fileid/document/excel/records`: the record classes

Paths are relative to `fileid/document/excel`. A `Rec` is a record object: its `Type`, `Length`, `Data` and
the members its constructor sets (`View`). Members that are pointers into `Data` are modelled by reading
`Data` again when the record is printed; `moved` tells that a later `Continue` record has made the vector
reallocate, so that those pointers dangle.
-/

namespace Fileid.Excel

open Common Tables ExcelTables

/-- Bits `[lo, lo + w)` of `n`. -/
def bits (n lo w : Nat) : Nat := n / 2 ^ lo % 2 ^ w

/-- Members of `FilePassRecord` (records/FilePassRecord.hpp:151-171). `flags` is `none` for an indeterminate
pointer, `some none` for a null pointer and `some (some off)` for a pointer to `Data[off]`. -/
structure FilePass where
  wEncryptionType : Nat
  key : Nat := 0
  verification : Nat := 0
  vMajor : Nat := 0
  vMinor : Nat := 0
  flags : Option (Option Nat) := none
  cspName : List Nat := []
  verifier : Nat := 0
  verifierHash : Bytes := []
  salt : Bytes := []
  encVerifier : Bytes := []
  deriving DecidableEq, Repr

/-- The members set by the constructor of each record class. -/
inductive View
  /-- `Record` and the classes derived from it that set no member of their own. -/
  | plain
  | bof
  | formula (rw col ixfe : Nat) (value : Bytes) (flags : Bytes) (formula : Bytes)
  | lbl (name : Bytes)
  | winProtect (fLockWn : Nat)
  | externName (addinUdf : Option Bytes)
  | filePass (p : FilePass)
  | codePage (codepage : Nat)
  | writeAccess (username : Bytes)
  | boundSheet8 (name : Bytes)
  | boundSheet5 (name : Bytes)
  | country (iCountryDef iCountryWinIni : Nat)
  | fnGroupName (name : Bytes)
  | builtInFnGroupCount (count : Nat)
  | mulBlank (rw colFirst colLast : Nat) (rgixfe : List Nat)
  | sst (cstTotal cstUnique : Int) (strings : List Bytes)
  | labelSst (isst : Nat) (value : Option Bytes)
  | supBook (ctab cch : Nat) (virtPath : Option Bytes) (rgst : List Bytes)
  | codeName (name : Bytes)
  | blank
  | boolErr (bBoolErr fError : Nat)
  | string (record : Bytes)
  | row (rw colMic colMac miyRw reserved1 unused1 : Nat) (flags reserved3 : UInt8) (ixfe_val : Nat) (ex : UInt8)
  | rk (rw col ixfe : Nat)
  | areaFormat (rgbFore rgbBack : Bytes) (fls : Nat) (ab : UInt8) (reserved ivcFore ivcBack : Nat)
  deriving DecidableEq, Repr

/-- records/Record.hpp:396-406, a record object. -/
structure Rec where
  type : Nat
  length : Nat
  data : Bytes
  view : View
  /-- `Data` has been reallocated since the constructor ran. -/
  moved : Bool := false
  deriving DecidableEq, Repr

/-- records/Record.hpp:401-406: the constructor of the base class. -/
def Rec.make (type : Nat) (data : Bytes) (view : View) : Rec :=
  { type, length := data.length, data, view }

/-! ## Constructors -/

/-- records/FormulaRecord.hpp:41-62. The six bytes of flags are copied without a check;
structures/formulas/ParsedFormulaBase.hpp:30-58 parses the tokens up to the end of the record (`cce` is
ignored) and takes the rest, if any, as extra data. -/
def mkFormula (abi : Abi) (fmt : Fmt) (fuel : Nat) (names : Nat → Nat → Option Bytes) (data : Bytes) :
    Res View := do
  let max := data.length
  let rw ← ReadUShort data max 0
  let col ← ReadUShort data max 2
  let ixfe ← ReadUShort data max 4
  let value ← rdRange data 6 6
  let _ ← ReadUShort data max 12
  let fExprO ← rdRange data 12 2
  let flags ← rdRange data 14 6
  let _ ← ReadUShort data max 20
  let rgce ← Rgce.Parse abi fuel data max 22
  RgbExtra data max (u32 (22 + rgce.2))
  .ok (.formula rw col ixfe (value ++ fExprO) flags (ToTextString fmt names rgce.1))

/-- records/LblRecord.hpp:46-60 with structures/formulas/NameParsedFormula.hpp:28-38 `Parse2`. -/
def mkLbl (abi : Abi) (fuel : Nat) (data : Bytes) : Res View := do
  let max := data.length
  let cch ← rd data 3
  let name ← XLUnicodeStringNoCch abi data max 14 cch.toNat
  let cce ← rdRange data 4 2
  let index := u32 (14 + name.2)
  let rgce ← Rgce.Parse abi fuel data (u32 (index + leVal cce)) index
  RgbExtra data max (u32 (index + rgce.2))
  .ok (.lbl name.1)

/-- records/WinProtectRecord.hpp:15-22: big-endian. -/
def mkWinProtect (data : Bytes) : Res View := do
  let n ← ReadUShort data data.length 0 true
  .ok (.winProtect n)

/-- records/ExternNameRecord.hpp:39-73 with structures/AddinUdf.hpp:20-33; `last` is
`GetPrevRecordOfType(0x01AE)`. In the other branch only the header's flags are looked at. -/
def mkExternName (abi : Abi) (data : Bytes) (last : Option Rec) : Res View :=
  match last.map Rec.view with
  | some (.supBook _ cch _ _) =>
    if cch = 0x3A01 then do
      let _ ← ReadUInt data data.length 2 true
      let s ← ShortXLUnicodeString abi data 6
      .ok (.externName (some s.1))
    else do
      let _ ← rd data 0
      .ok (.externName none)
  | _ => .ok (.externName none)

/-- records/FilePassRecord.hpp:192-209, the RC4 CryptoAPI branch. `offset` is an `int` (simplification: its
arithmetic is taken modulo 2^32). -/
def mkFilePassApi (abi : Abi) (data : Bytes) (p : FilePass) : Res FilePass := do
  let max := data.length
  let headerSize ← ReadUInt data max 10 true
  let byteCount := sub32 headerSize 32
  let cspName ← ReadWString abi data max 46 byteCount
  let offset := u32 (46 + byteCount)
  let size ← rdRange data (offset + 36) 4
  let verifierHash ← readBuffer data 0 (leVal size)
  .ok { p with flags := some (some 6), cspName, verifier := offset, verifierHash }

/-- records/FilePassRecord.hpp:210-219, the RC4 branch. -/
def mkFilePassRc4 (data : Bytes) (p : FilePass) : Res FilePass := do
  let salt ← readBuffer data 6 16
  let encVerifier ← readBuffer data 22 16
  let verifierHash ← readBuffer data 38 16
  .ok { p with flags := some none, salt, encVerifier, verifierHash }

/-- records/FilePassRecord.hpp:174-226. -/
def mkFilePass (abi : Abi) (data : Bytes) : Res View := do
  let max := data.length
  let w ← ReadUShort data max 0
  if w = 0 then do
    let key ← ReadUShort data max 2
    let verification ← ReadUShort data max 4
    .ok (.filePass { wEncryptionType := w, key, verification })
  else if w = 1 then do
    let vMajor ← ReadUShort data max 2
    let vMinor ← ReadUShort data max 4
    let p : FilePass := { wEncryptionType := w, vMajor, vMinor }
    if (vMajor = 2 ∨ vMajor = 3 ∨ vMajor = 4) ∧ vMinor = 2 then do
      let p ← mkFilePassApi abi data p
      .ok (.filePass p)
    else if vMajor = 1 ∧ vMinor = 1 then do
      let p ← mkFilePassRc4 data p
      .ok (.filePass p)
    else .ok (.filePass p)
  else .ok (.filePass { wEncryptionType := w })

/-- records/CodePageRecord.hpp:175-178. -/
def mkCodePage (data : Bytes) : Res View := do
  let n ← ReadUShort data data.length 0
  .ok (.codePage n)

/-- records/WriteAccessRecord.hpp:14-21. -/
def mkWriteAccess (data : Bytes) : Res View := do
  let s ← XLUnicodeString data 0 data.length
  .ok (.writeAccess s.1)

/-- records/BoundSheet8Record.hpp:27-32. -/
def mkBoundSheet8 (abi : Abi) (data : Bytes) : Res View := do
  let s ← ShortXLUnicodeString abi data 6
  .ok (.boundSheet8 s.1)

/-- records/BoundSheet5Record.hpp:18-40. -/
def mkBoundSheet5 (data : Bytes) : Res View := do
  let _ ← ReadUInt data data.length 0 true
  let _ ← rd data 4
  let _ ← rd data 5
  let cch ← rd data 6
  let s ← rdRange data 7 cch.toNat
  .ok (.boundSheet5 s)

/-- records/CountryRecord.hpp:80-85. -/
def mkCountry (data : Bytes) : Res View := do
  let a ← ReadUShort data data.length 0
  let b ← ReadUShort data data.length 2
  .ok (.country a b)

/-- records/FnGroupNameRecord.hpp:16-20. -/
def mkFnGroupName (data : Bytes) : Res View := do
  let s ← XLUnicodeString data 0 data.length
  .ok (.fnGroupName s.1)

/-- records/BuiltInFnGroupCountRecord.hpp:14-23. -/
def mkBuiltInFnGroupCount (data : Bytes) : Res View := do
  let n ← ReadUShort data data.length 0
  .ok (.builtInFnGroupCount n)

/-- records/MulBlankRecord.hpp:34-38, the loop; the first argument is the number of entries left. -/
def mulBlankLoop (data : Bytes) : Nat → Nat → Res (List Nat)
  | 0, _ => .ok []
  | n + 1, index => do
    let x ← ReadUShort data data.length index
    let xs ← mulBlankLoop data n (u32 (index + 2))
    .ok (x :: xs)

/-- records/MulBlankRecord.hpp:32-38: the entries between the first and the last column. -/
def mulBlankEntries (data : Bytes) (colFirst colLast : Nat) : Res (List Nat) :=
  mulBlankLoop data (sub32 (colLast + 1) colFirst) 4

/-- records/MulBlankRecord.hpp:20-39. -/
def mkMulBlank (data : Bytes) : Res View := do
  let rw ← ReadUShort data data.length 0
  let colFirst ← ReadUShort data data.length 2
  let colLast ← ReadUShort data data.length (sub32 data.length 2)
  let rgixfe ← mulBlankEntries data colFirst colLast
  .ok (.mulBlank rw colFirst colLast rgixfe)

/-- records/SSTRecord.hpp:31-35, the loop; the first argument is how many more strings `cstUnique` allows.
(`i < this->cstUnique` compares unsigned values.) -/
def sstLoop (abi : Abi) (data : Bytes) : Nat → Nat → Res (List Bytes)
  | 0, _ => .ok []
  | n + 1, index =>
    if index < data.length then do
      let s ← XLUnicodeRichExtendedString abi data index data.length
      let rest ← sstLoop abi data n (u32 (index + s.2))
      .ok (s.1 :: rest)
    else .ok []

/-- records/SSTRecord.hpp:21-37 `ReParse`. -/
def mkSST (abi : Abi) (data : Bytes) : Res View := do
  let cstTotal ← ReadSInt data data.length 0 true
  let cstUnique ← ReadSInt data data.length 4 true
  let strings ← sstLoop abi data (cstUnique % 4294967296).toNat 8
  .ok (.sst cstTotal cstUnique strings)

/-- records/LabelSstRecord.hpp:34-39: the string of the shared string table, if there is one. -/
def sstString (r : Option Rec) (isst : Nat) : Option Bytes :=
  match r.map Rec.view with
  | some (.sst _ _ strings) => strings[isst]?
  | _ => none

/-- records/LabelSstRecord.hpp:21-41; `r` is `GetPrevRecordOfType(0x00FC)`. -/
def mkLabelSst (data : Bytes) (r : Option Rec) : Res View := do
  let isst ← ReadUInt data data.length 6 true
  .ok (.labelSst isst (sstString r isst))

/-- records/SupBookRecord.hpp:40-44, the loop; the first argument is the number of strings left. -/
def supBookLoop (data : Bytes) : Nat → Nat → Res (List Bytes)
  | 0, _ => .ok []
  | n + 1, index => do
    let s ← XLUnicodeString data index data.length
    let rest ← supBookLoop data n (u32 (index + s.2))
    .ok (s.1 :: rest)

/-- records/SupBookRecord.hpp:31-37. -/
def supBookPath (data : Bytes) (cch : Nat) : Res (Option Bytes × Nat) :=
  if 4 < data.length ∧ 1 ≤ cch ∧ cch ≤ 0xFF then do
    let s ← ReadString data data.length 4 cch
    .ok (some s, 4 + cch)
  else .ok (none, 4)

/-- records/SupBookRecord.hpp:20-47. -/
def mkSupBook (data : Bytes) : Res View := do
  let ctab ← ReadUShort data data.length 0
  let cch ← ReadUShort data data.length 2
  let vp ← supBookPath data cch
  if vp.2 < data.length ∧ (cch = 0x3A01 ∨ cch = 0x0401) then do
    let rgst ← supBookLoop data ctab vp.2
    .ok (.supBook ctab cch vp.1 rgst)
  else .ok (.supBook ctab cch vp.1 [])

/-- records/CodeNameRecord.hpp:15-18. -/
def mkCodeName (data : Bytes) : Res View := do
  let s ← XLUnicodeString data 0 data.length
  .ok (.codeName s.1)

/-- records/BlankRecord.hpp:16-26. -/
def mkBlank (data : Bytes) : Res View :=
  if 6 > data.length then .throw .rangeError else .ok .blank

/-- records/BoolErrRecord.hpp:21-43. -/
def mkBoolErr (data : Bytes) : Res View :=
  if 6 > data.length then .throw .rangeError
  else if 7 > data.length then .throw .rangeError
  else do
    let b ← rd data 6
    if 8 > data.length then .throw .rangeError
    else do
      let f ← rd data 7
      .ok (.boolErr b.toNat f.toNat)

/-- records/StringRecord.hpp:19-21 `ReParse`. -/
def mkString (data : Bytes) : Res View := do
  let s ← XLUnicodeString data 0 data.length
  .ok (.string s.1)

/-- records/RowRecord.hpp:34-75. The five fields from offset 2 are read as four-byte big-endian values and
narrowed to 16 bits. -/
def mkRow (data : Bytes) : Res View := do
  let max := data.length
  let rw ← ReadUShort data max 0
  let colMic ← ReadUInt data max 2
  let colMac ← ReadUInt data max 4
  let miyRw ← ReadUInt data max 6
  let reserved1 ← ReadUInt data max 8
  let unused1 ← ReadUInt data max 10
  let flags ← rd data 12
  let reserved3 ← rd data 13
  let ixfe ← ReadUShort data max 14
  let ex ← rd data 15
  .ok (.row rw (u16 colMic) (u16 colMac) (u16 miyRw) (u16 reserved1) (u16 unused1) flags reserved3 (ixfe / 16) ex)

/-- records/RKRecord.hpp:38-54. -/
def mkRK (data : Bytes) : Res View := do
  let rw ← ReadUShort data data.length 0
  let col ← ReadUShort data data.length 2
  let ixfe ← ReadUShort data data.length 4
  .ok (.rk rw col ixfe)

/-- records/AreaFormatRecord.hpp:24-50 with structures/LongRGB.hpp:21-33. -/
def mkAreaFormat (data : Bytes) : Res View := do
  let max := data.length
  let fore ← rdRange data 0 4
  let back ← rdRange data 4 4
  let fls ← ReadUShort data max 8 true
  let ab ← rd data 10
  let reserved ← ReadUShort data max 10
  let ivcFore ← ReadUShort data max 12 true
  let ivcBack ← ReadUShort data max 14 true
  .ok (.areaFormat fore back fls ab (reserved % 16384) ivcFore ivcBack)

/-- records/AlRunsRecord.hpp:23-28 with structures/FormatRun.hpp:17-27, the loop; the first argument is the
number of runs left. (`==` for `=` leaves the members unset; they are never shown.) -/
def alRunsLoop (data : Bytes) : Nat → Nat → Res Unit
  | 0, _ => .ok ()
  | n + 1, index => do
    let _ ← ReadUShort data data.length index
    let _ ← ReadUShort data data.length (u32 (index + 2))
    alRunsLoop data n (u32 (index + 4))

/-- records/AlRunsRecord.hpp:15-29. -/
def mkAlRuns (data : Bytes) : Res View := do
  let cRuns ← ReadUShort data data.length 0
  alRunsLoop data cRuns 2
  .ok .plain

/-! ## What a record shows -/

/-- One member of a printed record. `num` is written bare in JSON; `text` is quoted but not escaped; `esc` is
quoted and escaped; `raw` gives both notations, the JSON one without the comma before it. -/
inductive Field
  | num (key value : Bytes)
  | text (key value : Bytes)
  | esc (key value : Bytes)
  | raw (json xml : Bytes)
  deriving DecidableEq, Repr

/-- `str << "\"key\":" << value` in its three forms. -/
def Field.toJson : Field → Bytes
  | .num k v => b!"\"" ++ k ++ b!"\":" ++ v
  | .text k v => b!"\"" ++ k ++ b!"\":\"" ++ v ++ b!"\""
  | .esc k v => b!"\"" ++ k ++ b!"\":\"" ++ JsonEscape v ++ b!"\""
  | .raw j _ => j

/-- `str << "<key>" << value << "</key>"`. -/
def Field.toXml : Field → Bytes
  | .num k v => b!"<" ++ k ++ b!">" ++ v ++ b!"</" ++ k ++ b!">"
  | .text k v => b!"<" ++ k ++ b!">" ++ v ++ b!"</" ++ k ++ b!">"
  | .esc k v => b!"<" ++ k ++ b!">" ++ XmlEscape v ++ b!"</" ++ k ++ b!">"
  | .raw _ x => x

/-- records/Record.hpp:19-379 `GetRecordTypeStr`. -/
def GetRecordTypeStr (type : Nat) : Bytes := (lookup recordTypes type).getD b!"Unknown/Undocumented RecordType"
/-- records/CodePageRecord.hpp:10-168 `CPToString`. -/
def CPToString (cp : Nat) : Bytes := (lookup codePages cp).getD b!"Unknown"
/-- records/CountryRecord.hpp:16-70 `GetCountryName`. -/
def GetCountryName (code : Nat) : Bytes := (lookup countries code).getD b!"Unknown"

/-- records/BOFRecord.hpp:56-67 `GetBOFType`. -/
def GetBOFType (type : Nat) : Bytes :=
  if type = 0x0005 then b!"Globals"
  else if type = 0x0006 then b!"VB Module"
  else if type = 0x0010 then b!"Sheet"
  else if type = 0x0020 then b!"Chart"
  else if type = 0x0040 then b!"Macro"
  else if type = 0x0100 then b!"Workspace"
  else b!"Unknown"

/-- A numeric member. -/
def numF (k : Bytes) (n : Nat) : Field := .num k (dec n)

/-- records/BOFRecord.hpp:83-146 with the layout of `BOF8` (14-37) on the x86-64 ABI: fields up to byte 13 are
read through the pointer, null for an empty record. -/
def bofFields (data : Bytes) : Res (List Field) :=
  if data = [] then .ub .nullDeref
  else do
    let d ← rdRange data 0 14
    let w (i : Nat) : Nat := leVal ((d.drop i).take 2)
    .ok [
      numF b!"Version" (w 0), numF b!"DocumentType" (w 2), .text b!"DocumentTypeStr" (GetBOFType (w 2)),
      numF b!"RUPBuild" (w 4), numF b!"RUPYear" (w 6),
      numF b!"LastEditWindows" (bits (w 8) 0 1), numF b!"LastEditRisc" (bits (w 8) 1 1),
      numF b!"LastEditBeta" (bits (w 8) 2 1), numF b!"AnyEditWindows" (bits (w 8) 3 1),
      numF b!"AnyEditRisc" (bits (w 8) 8 1), numF b!"AnyEditMac" (bits (w 8) 4 1),
      numF b!"AnyEditBeta" (bits (w 8) 5 1), numF b!"FailureOutOfMemory" (bits (w 8) 9 1),
      numF b!"FailureOutOfMemoryRender" (bits (w 8) 10 1), numF b!"FontLimitHit" (bits (w 8) 13 1),
      numF b!"HighestXLVersion" (bits (w 8) 14 1), numF b!"LowestBiff" (bits (w 12) 0 8),
      numF b!"LastSavedXLVersion" (bits (w 12) 8 4)]

/-- structures/FormulaValue.hpp:46-85 `Value`, from the eight bytes of the value. -/
def formulaValue (fmt : Fmt) (v : Bytes) : Bytes :=
  if leVal ((v.drop 6).take 2) = 0xFFFF then
    if v[0]? = some 1 then (if v[2]? = some 0 then b!"false" else b!"true")
    else if v[0]? = some 2 then ErrorValueString ((v.getD 2 0).toNat)
    else []
  else fmt.f64 (leVal v)

/-- records/FormulaRecord.hpp:64-113 with the layout of 13-27. -/
def formulaFields (fmt : Fmt) (rw col : Nat) (value flags formula : Bytes) : List Field :=
  let w (i : Nat) : Nat := leVal ((flags.drop i).take 2)
  [ numF b!"fAlwaysCalc" (bits (w 0) 0 1), numF b!"fCaclOnLoad" (bits (w 0) 1 1), numF b!"fFill" (bits (w 0) 2 1),
    numF b!"fShrFmla" (bits (w 0) 3 1), numF b!"fNeedBuild" (bits (w 0) 4 1), numF b!"fClearErrors" (bits (w 0) 5 1),
    numF b!"reserved3" (bits (w 0) 6 10), numF b!"rw" (w 2), numF b!"col" (bits (w 4) 0 8),
    numF b!"fIamNotTop" (bits (w 4) 8 1), numF b!"fNotNull" (bits (w 4) 9 1), numF b!"fEnt" (bits (w 4) 10 1),
    numF b!"itab" (bits (w 4) 11 5), .text b!"Cell" (cellRef rw col), .esc b!"Value" (formulaValue fmt value),
    .esc b!"FormulaString" formula ]

/-- records/LblRecord.hpp:62-119 with the layout of 11-32. -/
def lblFields (data : Bytes) (name : Bytes) : Res (List Field) := do
  let d ← rdRange data 0 14
  let w (i : Nat) : Nat := leVal ((d.drop i).take 2)
  let c (i : Nat) : Nat := (d.getD i 0).toNat
  .ok [
    numF b!"fHidden" (bits (w 0) 0 1), numF b!"fFunc" (bits (w 0) 1 1), numF b!"fOB" (bits (w 0) 2 1),
    numF b!"fProc" (bits (w 0) 3 1), numF b!"fCalcExp" (bits (w 0) 4 1), numF b!"fBuiltin" (bits (w 0) 5 1),
    numF b!"fGrp" (bits (w 0) 6 6), numF b!"reserved1" (bits (w 0) 12 1), numF b!"fPublished" (bits (w 0) 13 1),
    numF b!"fWorkbookParam" (bits (w 0) 14 1), numF b!"chKey" (c 2), numF b!"cch" (c 3), numF b!"cce" (w 4),
    numF b!"reserved3" (w 6), numF b!"itab" (w 8), numF b!"reserved4" (c 10), numF b!"reserved5" (c 11),
    numF b!"reserved6" (c 12), numF b!"reserved7" (c 13), .esc b!"name" name,
    .raw b!"\"namedparsedformula\":{}" b!"<NameParsedFormula></NameParsedFormula>"]

/-- records/ExternNameRecord.hpp:75-111 with the layout of 11-19 on the x86-64 ABI (bits 0-4, 5-14 and 15 of the
first two bytes). `fIcon` shows `fBuiltin`. -/
def externNameFields (data : Bytes) (addin : Option Bytes) : Res (List Field) := do
  let d ← rdRange data 0 2
  let w := leVal d
  .ok ([ numF b!"fBuiltin" (bits w 0 1), numF b!"fWantAdvise" (bits w 1 1), numF b!"fWantPict" (bits w 2 1),
    numF b!"fOle" (bits w 3 1), numF b!"fOleLink" (bits w 4 1), numF b!"cf" (bits w 5 10),
    numF b!"fIcon" (bits w 0 1)] ++ (match addin with | some a => [.text b!"addinUdf" a] | none => []))

/-- A JSON object of numbers and the same as XML elements. -/
def objJson (l : List Field) : Bytes := b!"{" ++ vectorJoin (l.map Field.toJson) b!"," ++ b!"}"
def objXml (l : List Field) : Bytes := (l.map Field.toXml).flatten

/-- records/FilePassRecord.hpp:10-40 `EncryptionHeaderFlags`, from its four bytes. -/
def flagsFields (w : Nat) : List Field :=
  [ numF b!"Reserved1" (bits w 0 1), numF b!"Reserved2" (bits w 1 1), numF b!"fCryptoAPI" (bits w 2 1),
    numF b!"fDocProps" (bits w 3 1), numF b!"fExternal" (bits w 4 1), numF b!"fAES" (bits w 5 1),
    numF b!"Unused" (bits w 6 26)]

/-- A nested object: `"name":{…}` and `<name>…</name>`. -/
def nested (name : Bytes) (l : List Field) : Field :=
  .raw (b!"\"" ++ name ++ b!"\":" ++ objJson l) (b!"<" ++ name ++ b!">" ++ objXml l ++ b!"</" ++ name ++ b!">")

/-- records/FilePassRecord.hpp:41-78 `EncryptionHeader`, from its 32 bytes (`Reserved2` shows `Reserved1`). -/
def encHeaderFields (d : Bytes) : List Field :=
  let w (i : Nat) : Nat := leVal ((d.drop i).take 4)
  [ nested b!"Flags" (flagsFields (w 0)), numF b!"SizeExtra" (w 4), numF b!"AlgID" (w 8), numF b!"AlgIDHash" (w 12),
    numF b!"KeySize" (w 16), numF b!"ProviderType" (w 20), numF b!"Reserved1" (w 24), numF b!"Reserved2" (w 24)]

/-- records/FilePassRecord.hpp:80-105 `EncryptionVerifierHeader`, from its 40 bytes. -/
def verifierFields (d : Bytes) : List Field :=
  [ numF b!"SaltSize" (leVal (d.take 4)), .text b!"Salt" (bin2hex ((d.drop 4).take 16)),
    .text b!"EncryptedVerifier" (bin2hex ((d.drop 20).take 16)),
    numF b!"VerifierHashSize" (leVal ((d.drop 36).take 4))]

/-- records/FilePassRecord.hpp:244-249 and 280-286. -/
def filePassApiFields (abi : Abi) (data : Bytes) (p : FilePass) (off : Nat) : Res (List Field) := do
  let flags ← rdRange data off 4
  let header ← rdRange data 14 32
  let csp ← convert abi p.cspName
  let verifier ← rdRange data p.verifier 40
  .ok [ nested b!"Flags" (flagsFields (leVal flags)), nested b!"EncryptionHeader" (encHeaderFields header),
    .esc b!"CSPName" (erasenulls csp), nested b!"EncryptionVerifierHeader" (verifierFields verifier),
    .text b!"EncryptedVerifierHash" (bin2hex p.verifierHash)]

/-- records/FilePassRecord.hpp:227-297. For an RC4 version that is not known `flags` is indeterminate. With a
null `flags` and no salt the JSON text ends in a comma; that takes an empty salt, which never happens. -/
def filePassFields (abi : Abi) (data : Bytes) (p : FilePass) : Res (List Field) :=
  if p.wEncryptionType = 0 then
    .ok [ .text b!"EncryptionType" b!"XOR",
      .raw (b!"\"XorKey\": " ++ dec p.key) (b!"<XorKey>" ++ dec p.key ++ b!"</XorKey>"),
      numF b!"XorVerification" p.verification]
  else if p.wEncryptionType = 1 then
    let head : List Field := [ .text b!"EncryptionType" b!"RC4",
      .raw (b!"\"RC4Version\": {\"Major\":" ++ dec p.vMajor ++ b!",\"Minor\":" ++ dec p.vMinor ++ b!"}")
        (b!"<RC4Version><Major>" ++ dec p.vMajor ++ b!"</Major><Minor>" ++ dec p.vMinor ++ b!"</Minor></RC4Version>")]
    match p.flags with
    | none => .ub .uninit
    | some (some off) => do
      let l ← filePassApiFields abi data p off
      .ok (head ++ l)
    | some none =>
      .ok (head ++ [ .text b!"Salt" (bin2hex p.salt), .text b!"EncryptedVerifier" (bin2hex p.encVerifier),
        .text b!"EncryptedVerifierHash" (bin2hex p.verifierHash)])
  else .ok [numF b!"EncryptionType" p.wEncryptionType]

/-- records/CountryRecord.hpp:86-105, one locale. -/
def localeField (key : Bytes) (code : Nat) : Field :=
  .raw (b!"\"" ++ key ++ b!"\" : { \"Code\":" ++ dec code ++ b!", \"Name\": \"" ++ GetCountryName code ++ b!"\"}")
    (b!"<" ++ key ++ b!"><Code>" ++ dec code ++ b!"</Code><Name>" ++ GetCountryName code ++ b!"</Name></" ++ key ++ b!">")

/-- records/RKRecord.hpp:13-27 `GetValue`, from the four bytes of the number. -/
def rkValue (fmt : Fmt) (n : Nat) : Bytes :=
  if bits n 1 1 = 1 then
    if bits n 0 1 = 0 then dec (bits n 2 30) else dec (bits n 2 30 / 100)
  else fmt.f32 (bits n 2 30)

/-- records/RKRecord.hpp:56-88. -/
def rkFields (fmt : Fmt) (data : Bytes) (rw col ixfe : Nat) : Res (List Field) := do
  let d ← rdRange data 6 4
  let n := leVal d
  .ok [ numF b!"rw" rw, numF b!"col" col, numF b!"ixfe" ixfe, numF b!"fX100" (bits n 0 1), numF b!"fInt" (bits n 1 1),
    numF b!"num" (bits n 2 30), .text b!"Cell" (ColNumToName col ++ dec (rw + 1)), .num b!"Value" (rkValue fmt n)]

/-- `reinterpret_cast<Cell*>(buffer)->to_string()` (records/BlankRecord.hpp:24,32; structures/Cell.hpp:35-39).
`Cell` has a virtual function and inherits `bytesRead`, so on a 64-bit ABI `rw` and `col` are read at offsets 12
and 14. -/
def cellThroughCast (data : Bytes) : Res Bytes := do
  let d ← rdRange data 12 4
  .ok (cellRef (leVal (d.take 2)) (leVal (d.drop 2)))

/-- records/MulBlankRecord.hpp:41-73. -/
def mulBlankFields (rw colFirst colLast : Nat) (rgixfe : List Nat) : List Field :=
  [ numF b!"rw" rw, .text b!"colFirst" (ColNumToName colFirst), .text b!"colLast" (ColNumToName colLast)] ++
  (if rgixfe.length > 0 then
    [.raw (b!"\"rgixfe\":[" ++ vectorJoin (rgixfe.map dec) b!"," ++ b!"]")
      (b!"<rgixfe>" ++ (rgixfe.map (fun x => b!"<ixfe>" ++ dec x ++ b!"</ixfe>")).flatten ++ b!"</rgixfe>")]
   else [])

/-- records/SSTRecord.hpp:38-73. -/
def sstFields (cstTotal cstUnique : Int) (strings : List Bytes) : List Field :=
  [ .num b!"cstTotal" (decInt cstTotal), .num b!"cstUnique" (decInt cstUnique)] ++
  (if strings.length > 0 then
    [.raw (b!"\"strings\":[" ++ vectorJoin (strings.map JsonEscape) b!"," true ++ b!"]")
      (b!"<strings>" ++ (strings.map (fun s => b!"<string>" ++ XmlEscape s ++ b!"</string>")).flatten ++ b!"</strings>")]
   else [])

/-- records/SupBookRecord.hpp:49-86. -/
def supBookFields (ctab cch : Nat) (virtPath : Option Bytes) (rgst : List Bytes) : List Field :=
  [ numF b!"ctab" ctab, numF b!"cch" cch] ++ (match virtPath with | some s => [.text b!"virtPath" s] | none => []) ++
  (if rgst.length > 0 then
    [.raw (b!"\"rgst\":[" ++ vectorJoin rgst b!"," true ++ b!"]")
      (b!"<rgst>" ++ (rgst.map (fun s => b!"<string>" ++ s ++ b!"</string>")).flatten ++ b!"</rgst>")]
   else [])

/-- records/RowRecord.hpp:77-130. -/
def rowFields (rw colMic colMac miyRw reserved1 unused1 : Nat) (flags reserved3 : UInt8) (ixfe_val : Nat)
    (ex : UInt8) : List Field :=
  [ numF b!"rw" rw, numF b!"colMic" colMic, numF b!"colMac" colMac, numF b!"miyRw" miyRw,
    numF b!"reserved1" reserved1, numF b!"unused1" unused1,
    numF b!"iOutlevel" (bits flags.toNat 0 3), numF b!"reserved2" (bits flags.toNat 3 1),
    numF b!"fCollapsed" (bits flags.toNat 4 1), numF b!"fDyZero" (bits flags.toNat 5 1),
    numF b!"fUnsynced" (bits flags.toNat 6 1), numF b!"fGhostDirty" (bits flags.toNat 7 1),
    numF b!"reserved3" reserved3.toNat, numF b!"ixfe_val" ixfe_val,
    numF b!"fExAsc" (bits ex.toNat 4 1), numF b!"fExDes" (bits ex.toNat 5 1),
    numF b!"fPhonetic" (bits ex.toNat 6 1), numF b!"unused" (bits ex.toNat 7 1)]

/-- structures/LongRGB.hpp:35-54. -/
def rgbField (key d : Bytes) : Field :=
  let c (i : Nat) : Nat := (d.getD i 0).toNat
  let l := [numF b!"red" (c 0), numF b!"green" (c 1), numF b!"blue" (c 2), numF b!"reserved" (c 3)]
  .raw (b!"\"" ++ key ++ b!"\":" ++ objJson l)
    (b!"<" ++ key ++ b!"><LongRGB>" ++ objXml l ++ b!"</LongRGB></" ++ key ++ b!">")

/-- records/AreaFormatRecord.hpp:52-83. -/
def areaFormatFields (fore back : Bytes) (fls : Nat) (ab : UInt8) (reserved ivcFore ivcBack : Nat) : List Field :=
  [ rgbField b!"rgbFore" fore, rgbField b!"rgbBack" back, numF b!"fls" fls, numF b!"A" (bits ab.toNat 0 1),
    numF b!"B" (bits ab.toNat 1 1), numF b!"reserved" reserved, numF b!"ivcFore" ivcFore, numF b!"ivcBack" ivcBack]

/-- records/BlankRecord.hpp:27-45. -/
def blankFields (data : Bytes) : Res (List Field) := do
  let cell ← cellThroughCast data
  .ok [.text b!"Cell" cell]

/-- records/BoolErrRecord.hpp:45-80 (`boolalpha` does not affect an `unsigned short`). -/
def boolErrFields (data : Bytes) (bBoolErr fError : Nat) : Res (List Field) := do
  let cell ← cellThroughCast data
  .ok [ .text b!"Cell" cell, numF b!"fError" fError, numF b!"bBoolErr" bBoolErr,
    .text b!"Value" (if fError = 0 then dec bBoolErr else ErrorValueString bBoolErr)]

/-- records/LabelSstRecord.hpp:43-69. -/
def labelSstFields (data : Bytes) (isst : Nat) (value : Option Bytes) : Res (List Field) := do
  let cell ← cellThroughCast data
  .ok ([ .text b!"Cell" cell, numF b!"isst" isst] ++ (match value with | some v => [.esc b!"Value" v] | none => []))

/-- records/BoundSheet8Record.hpp:38-61 with the layout of 12-17. -/
def boundSheet8Fields (data name : Bytes) : Res (List Field) := do
  let d ← rdRange data 0 6
  .ok [ .esc b!"Name" name, numF b!"State" (bits (d.getD 4 0).toNat 0 2), numF b!"SheetType" (d.getD 5 0).toNat]

/-- Members that are pointers into `Data` may not be used once it has moved. -/
def ifUnmoved (moved : Bool) (x : Res (List Field)) : Res (List Field) := if moved then .ub .dangling else x

/-- What the `ToJson` and `ToXml` of each class print between the type and length and the end. -/
def Rec.fields (abi : Abi) (fmt : Fmt) (r : Rec) : Res (List Field) :=
  match r.view with
  | .plain => .ok []
  | .bof => ifUnmoved r.moved (bofFields r.data)
  | .formula rw col _ value flags formula => .ok (formulaFields fmt rw col value flags formula)
  | .lbl name => ifUnmoved r.moved (lblFields r.data name)
  | .winProtect n => .ok [numF b!"fLockWn" n]
  | .externName a => ifUnmoved r.moved (externNameFields r.data a)
  | .filePass p => ifUnmoved (r.moved && p.wEncryptionType == 1) (filePassFields abi r.data p)
  | .codePage n => .ok [numF b!"CodePage" n, .esc b!"CodePageStr" (CPToString n)]
  | .writeAccess s => .ok [.text b!"username" s]
  | .boundSheet8 name => ifUnmoved r.moved (boundSheet8Fields r.data name)
  | .boundSheet5 _ => .ok []
  | .country a b => .ok [localeField b!"WorkbookLocale" a, localeField b!"OSLocale" b]
  | .fnGroupName s => .ok [.text b!"Name" s]
  | .builtInFnGroupCount n => .ok [numF b!"Count" n]
  | .mulBlank rw a b l => .ok (mulBlankFields rw a b l)
  | .sst a b l => .ok (sstFields a b l)
  | .labelSst i v => ifUnmoved r.moved (labelSstFields r.data i v)
  | .supBook a b v l => .ok (supBookFields a b v l)
  | .codeName s => .ok [.text b!"CodeName" s]
  | .blank => ifUnmoved r.moved (blankFields r.data)
  | .boolErr b f => ifUnmoved r.moved (boolErrFields r.data b f)
  | .string s => .ok [.raw (b!"\"String\":\"" ++ JsonEscape s ++ b!"\"")
      (b!"<String><![CDATA[" ++ XmlEscape s ++ b!"]]></String>")]
  | .row a b c d e f g h i j => .ok (rowFields a b c d e f g h i j)
  | .rk rw col ixfe => ifUnmoved r.moved (rkFields fmt r.data rw col ixfe)
  | .areaFormat a b c d e f g => .ok (areaFormatFields a b c d e f g)

/-- records/Record.hpp:389-395 `getBaseJson` (the classes that print the base members themselves print the
same). -/
def Rec.baseFields (r : Rec) : List Field := [.text b!"Type" (GetRecordTypeStr r.type), numF b!"Length" r.length]

/-- records/Record.hpp:417-424 `ToJson` and its overrides. -/
def Rec.toJson (abi : Abi) (fmt : Fmt) (r : Rec) : Res Bytes := do
  let l ← r.fields abi fmt
  .ok (objJson (r.baseFields ++ l))

/-- records/Record.hpp:408-415 `ToXml` and its overrides. -/
def Rec.toXml (abi : Abi) (fmt : Fmt) (r : Rec) : Res Bytes := do
  let l ← r.fields abi fmt
  .ok (b!"<Record>" ++ objXml (r.baseFields ++ l) ++ b!"</Record>")

/-- `INameable::GetName` (records/LblRecord.hpp:42-44, records/ExternNameRecord.hpp:31-37). -/
def Rec.name? (r : Rec) : Option Bytes :=
  match r.view with
  | .lbl n => some n
  | .externName (some a) => some a
  | .externName none => some []
  | _ => none

end Fileid.Excel
