import Verif.Model.ExcelRecords

/-!
# Model of `fileid/document/excel`: `ParseRecord`, `ParseEngine` and `ExcelExtensionInfo`

Paths are relative to `fileid/document/excel`. The records made so far are one list (`masterList`); the global
substream and the sheets hold positions in it, as the program holds pointers.
-/

namespace Fileid.Excel

open Common Tables ExcelTables

/-- A sheet (Sheet.hpp:13-23); `children` holds positions in the record list. -/
structure Sheet where
  Name : Bytes := []
  Visiblity : Nat := 0
  kind : Nat := 0
  Offset : Nat := 0
  children : List Nat := []
  deriving DecidableEq, Repr

/-- ParseEngine.hpp:9-21, the members of the engine, and the locals `version` and `sheetIndex` of
`ParseStream`. `Version` is `none` until it is assigned. `current` is the position of the sheet pointed to and
whether the pointer dangles; `cap` is the capacity of `sheets`, which doubles when exceeded (libstdc++).
`lookup` has the newest entry of a key in front. `lastRecord` is the last of `master`. -/
structure Eng where
  index : Nat := 0
  version : Nat := 0
  Version : Option Nat := none
  master : List Rec := []
  global : List Nat := []
  sheets : List Sheet := []
  cap : Nat := 0
  lookup : List (Nat × Nat) := []
  current : Option (Nat × Bool) := none
  sheetIndex : Nat := 0
  deriving DecidableEq, Repr

/-- ParseEngine.hpp:32-46 `GetPrevRecordOfType`; before the first record `lastRecord` is indeterminate. -/
def Eng.prevOfType (e : Eng) (type : Nat) : Res (Option Rec) :=
  if e.master = [] then .ub .uninit else .ok (e.master.reverse.find? (fun r => r.type == type))

/-- The position from the end of the last element satisfying `p`. -/
def lastIdx (p : Rec → Bool) (l : List Rec) : Option Nat :=
  (l.reverse.findIdx? p).map (fun i => l.length - 1 - i)

/-- ParseEngine.hpp:48-62 `GetPrevRecordNotOfType`: its position in the list. -/
def Eng.prevNotOfType (e : Eng) (type : Nat) : Res (Option Nat) :=
  if e.master = [] then .ub .uninit else .ok (lastIdx (fun r => r.type != type) e.master)

/-- ParseEngine.hpp:64-80 `GetRecordOfType`: the record of the type after `idx` others. (Simplification:
fewer than 2^16 records of the type, so `currentIdx` does not wrap around.) -/
def Eng.recordOfType (e : Eng) (type idx : Nat) : Option Rec := (e.master.filter (fun r => r.type == type))[idx]?

/-- structures/formulas/Rgce.hpp:188-196: the name of a record found by type and index. -/
def Eng.names (e : Eng) (type idx : Nat) : Option Bytes := (e.recordOfType type idx).bind Rec.name?

/-- `r->Data.insert(r->Data.end(), data.begin(), data.end())`: a vector that was filled by copying has no room,
so inserting anything moves it. -/
def Rec.append (r : Rec) (data : Bytes) : Rec :=
  if data = [] then r else { r with data := r.data ++ data, moved := true }

/-- records/ContinueRecord.hpp:11-21. -/
def mkContinue (e : Eng) (type : Nat) (data : Bytes) : Res (List Rec) := do
  let r ← e.prevNotOfType type
  match r with
  | none => .ub .nullDeref
  | some i => .ok (e.master.modify i (fun r => r.append data))

/-- A constructor that leaves the other records alone. -/
def fresh (e : Eng) (type : Nat) (data : Bytes) (v : Res View) : Res (List Rec × Rec) := do
  let v ← v
  .ok (e.master, Rec.make type data v)

/-- The members set by the constructor of a BIFF8 class that does not look at other records
(records/Record.Parser.hpp:25-389 constructs the class; classes not named here add no member). -/
def simpleView (abi : Abi) (fuel : Nat) (cls data : Bytes) : Res View :=
  if cls = b!"Lbl" then mkLbl abi fuel data
  else if cls = b!"WinProtect" then mkWinProtect data
  else if cls = b!"FilePass" then mkFilePass abi data
  else if cls = b!"CodePage" then mkCodePage data
  else if cls = b!"WriteAccess" then mkWriteAccess data
  else if cls = b!"BoundSheet8" then mkBoundSheet8 abi data
  else if cls = b!"Country" then mkCountry data
  else if cls = b!"FnGroupName" then mkFnGroupName data
  else if cls = b!"BuiltInFnGroupCount" then mkBuiltInFnGroupCount data
  else if cls = b!"MulBlank" then mkMulBlank data
  else if cls = b!"SST" then mkSST abi data
  else if cls = b!"SupBook" then mkSupBook data
  else if cls = b!"CodeName" then mkCodeName data
  else if cls = b!"Blank" then mkBlank data
  else if cls = b!"BoolErr" then mkBoolErr data
  else if cls = b!"String" then mkString data
  else if cls = b!"Row" then mkRow data
  else if cls = b!"RK" then mkRK data
  else if cls = b!"BOF" then .ok .bof
  else if cls = b!"AreaFormat" then mkAreaFormat data
  else if cls = b!"AlRuns" then mkAlRuns data
  else .ok .plain

/-- records/ExternNameRecord.hpp:39-73. -/
def freshExternName (abi : Abi) (e : Eng) (type : Nat) (data : Bytes) : Res (List Rec × Rec) := do
  let last ← e.prevOfType 0x01AE
  fresh e type data (mkExternName abi data last)

/-- records/LabelSstRecord.hpp:21-41. -/
def freshLabelSst (e : Eng) (type : Nat) (data : Bytes) : Res (List Rec × Rec) := do
  let _ ← ReadUInt data data.length 6 true
  let r ← e.prevOfType 0x00FC
  fresh e type data (mkLabelSst data r)

/-- records/ContinueRecord.hpp:11-21. -/
def freshContinue (e : Eng) (type : Nat) (data : Bytes) : Res (List Rec × Rec) := do
  let m ← mkContinue e type data
  .ok (m, Rec.make type data .plain)

/-- records/Record.Parser.hpp:25-389, the BIFF8 `switch`. -/
def parseBiff8 (abi : Abi) (fmt : Fmt) (fuel : Nat) (e : Eng) (type : Nat) (data : Bytes) : Res (List Rec × Rec) :=
  let cls := (Tables.lookup biff8Classes type).getD []
  if cls = b!"Formula" then fresh e type data (mkFormula abi fmt fuel e.names data)
  else if cls = b!"ExternName" then freshExternName abi e type data
  else if cls = b!"LabelSst" then freshLabelSst e type data
  else if cls = b!"Continue" then freshContinue e type data
  else fresh e type data (simpleView abi fuel cls data)

/-- The types of a beginning-of-file record: BIFF2, BIFF3, BIFF4, and BIFF5 or BIFF8. -/
def isBofType (type : Nat) : Bool := type == 0x0009 || type == 0x0209 || type == 0x0409 || type == 0x0809

/-- records/Record.Parser.hpp:24-435, the `switch` over the version. -/
def parseVersioned (abi : Abi) (fmt : Fmt) (fuel : Nat) (e : Eng) (type : Nat) (data : Bytes) : Res (List Rec × Rec) :=
  if e.version = 1536 then parseBiff8 abi fmt fuel e type data
  else if e.version = 1280 then
    if type = 0x0809 then fresh e type data (.ok .bof)
    else if type = 0x0085 then fresh e type data (mkBoundSheet5 data)
    else fresh e type data (.ok .plain)
  else if e.version = 1024 then fresh e type data (.ok (if type = 0x0409 then .bof else .plain))
  else if e.version = 768 then fresh e type data (.ok (if type = 0x0209 then .bof else .plain))
  else if e.version = 512 then fresh e type data (.ok (if type = 0x0009 then .bof else .plain))
  else fresh e type data (.ok (if isBofType type then .bof else .plain))

/-- records/Record.Parser.hpp:437-447: a `range_error` is caught and there is no record. -/
def dropRangeError (x : Res (List Rec × Rec)) : Res (Option (List Rec × Rec)) :=
  match x with
  | .ok a => .ok (some a)
  | .throw .rangeError => .ok none
  | .throw e => .throw e
  | .ub u => .ub u
  | .fuel => .fuel

/-- records/Record.Parser.hpp:19-449 `ParseRecord`: the records as the constructor leaves them, and the new
one. -/
def ParseRecord (abi : Abi) (fmt : Fmt) (fuel : Nat) (e : Eng) (type : Nat) (data : Bytes) :
    Res (Option (List Rec × Rec)) :=
  dropRangeError (parseVersioned abi fmt fuel e type data)

/-- ParseEngine.hpp:120-142: a substream's beginning selects the sheet the following records go to. -/
def subStreamBof (e : Eng) : Eng :=
  if e.version = 1536 then
    match e.lookup.lookup (sub32 e.index 4) with
    | some i => { e with current := some (i, false) }
    | none => e
  else if e.version = 1280 then
    let si := if e.current = none then 0 else u32 (e.sheetIndex + 1)
    if si < e.sheets.length then { e with sheetIndex := si, current := some (si, false) }
    else { e with sheetIndex := si }
  else { e with current := none }

/-- ParseEngine.hpp:112-119: the first record's version; the pointer is null for an empty record. -/
def globalBof (e : Eng) (r : Rec) : Res Eng :=
  if r.data = [] then .ub .nullDeref
  else do
    let v ← rdRange r.data 0 2
    .ok { e with Version := some (leVal v), version := leVal v }

/-- `sheets.push_back(si)`. -/
def pushSheet (e : Eng) (s : Sheet) : Eng :=
  { e with
    sheets := e.sheets ++ [s]
    cap := if e.sheets.length < e.cap then e.cap else (if e.cap = 0 then 1 else 2 * e.cap)
    current := if e.sheets.length < e.cap then e.current else e.current.map (fun c => (c.1, true)) }

/-- The `Name` of a bound sheet record. -/
def sheetName (r : Rec) : Bytes :=
  match r.view with
  | .boundSheet8 n => n
  | .boundSheet5 n => n
  | _ => []

/-- ParseEngine.hpp:145-164. -/
def boundSheet (e : Eng) (r : Rec) : Res Eng :=
  if e.version = 1536 then do
    let h ← rdRange r.data 0 6
    let off := leVal (h.take 4)
    let s : Sheet := {
      Name := sheetName r, kind := (h.getD 5 0).toNat, Visiblity := bits (h.getD 4 0).toNat 0 2, Offset := off }
    .ok (pushSheet { e with lookup := (off, e.sheets.length) :: e.lookup } s)
  else if e.version = 1280 then .ok (pushSheet e { Name := sheetName r })
  else .ok (pushSheet e {})

/-- ParseEngine.hpp:105-170, the `switch` over the record type. -/
def effect (e : Eng) (max : Nat) (r : Rec) : Res Eng :=
  if isBofType r.type then
    if e.index = 4 then globalBof e r else .ok (subStreamBof e)
  else if r.type = 0x0085 then boundSheet e r
  else if r.type = 0x002F then .ok { e with index := u32 (e.index + max) }
  else .ok e

/-- Sheet.hpp:25-27 `AddRecord` at the position of the sheet. -/
def addToSheet (sheets : List Sheet) (i id : Nat) : List Sheet :=
  sheets.modify i (fun s => { s with children := s.children ++ [id] })

/-- ParseEngine.hpp:172-180: the record goes to the current sheet or the global substream, and to the list. -/
def addRecord (e : Eng) (r : Rec) : Res Eng :=
  match e.current with
  | some (_, true) => .ub .dangling
  | some (i, false) =>
    .ok { e with sheets := addToSheet e.sheets i e.master.length, master := e.master ++ [r] }
  | none => .ok { e with global := e.global ++ [e.master.length], master := e.master ++ [r] }

/-- ParseEngine.hpp:99-102: the record's data, left out unless a further byte follows it.
(Simplification: streams so long that `index + size` wraps are not treated as undefined behaviour.) -/
def recordData (buffer : Bytes) (index size : Nat) : Bytes :=
  if u32 (index + size) < buffer.length then (buffer.drop index).take (u32 (index + size) - index) else []

/-- ParseEngine.hpp:103-185 for a record of the given type and size whose data begins at `e.index`. -/
def stepRecord (abi : Abi) (fmt : Fmt) (fuel : Nat) (buffer : Bytes) (e : Eng) (type size : Nat) : Res Eng := do
  let r ← ParseRecord abi fmt fuel e type (recordData buffer e.index size)
  match r with
  | none => .ok { e with index := u32 (e.index + size) }
  | some (m, r) => do
    let e ← effect { e with master := m } buffer.length r
    let e ← addRecord e r
    .ok { e with index := u32 (e.index + size) }

/-- ParseEngine.hpp:93-186, the body of the loop. -/
def stepEngine (abi : Abi) (fmt : Fmt) (fuel : Nat) (buffer : Bytes) (e : Eng) : Res Eng := do
  let type ← ReadUShort buffer buffer.length e.index
  let size ← ReadUShort buffer buffer.length (u32 (e.index + 2))
  stepRecord abi fmt fuel buffer { e with index := u32 (e.index + 4) } type size

/-- ParseEngine.hpp:92-186, the loop, within a number of steps: the engine as it is left, and how it ended.
(Simplification: `index` is not advanced when a record throws; nothing reads it afterwards.) -/
def walk (abi : Abi) (fmt : Fmt) (fuel : Nat) (buffer : Bytes) : Nat → Eng → Eng × Res Unit
  | 0, e => (e, .fuel)
  | n + 1, e =>
    if u32 (e.index + 4) < buffer.length then
      match stepEngine abi fmt fuel buffer e with
      | .ok e' => walk abi fmt fuel buffer n e'
      | .throw x => (e, .throw x)
      | .ub u => (e, .ub u)
      | .fuel => (e, .fuel)
    else (e, .ok ())

/-- ParseEngine.hpp:82-187 `ParseStream` on a new engine. -/
def ParseStream (abi : Abi) (fmt : Fmt) (fuel : Nat) (stream : Bytes) : Eng × Res Unit :=
  walk abi fmt fuel stream fuel {}

/-! ## Documents -/

/-- Print every record of a list of positions. -/
def printAll (print : Rec → Res Bytes) (master : List Rec) : List Nat → Res (List Bytes)
  | [] => .ok []
  | i :: is =>
    match master[i]? with
    | none => .ub .oobRead
    | some r => do
      let x ← print r
      let xs ← printAll print master is
      .ok (x :: xs)

/-- SubStream.hpp:31-41 `ToJson`. -/
def substreamJson (abi : Abi) (fmt : Fmt) (master : List Rec) (ids : List Nat) : Res Bytes := do
  let l ← printAll (Rec.toJson abi fmt) master ids
  .ok (b!"\"Records\":[" ++ vectorJoin l b!"," ++ b!"]")

/-- SubStream.hpp:21-30 `ToXml`. -/
def substreamXml (abi : Abi) (fmt : Fmt) (master : List Rec) (ids : List Nat) : Res Bytes := do
  let l ← printAll (Rec.toXml abi fmt) master ids
  .ok (b!"<Records>" ++ l.flatten ++ b!"</Records>")

/-- Sheet.hpp:43-57 `ToJson`. -/
def sheetJson (abi : Abi) (fmt : Fmt) (master : List Rec) (s : Sheet) : Res Bytes := do
  let kids ← if s.children.length > 0 then do
      let k ← substreamJson abi fmt master s.children
      pure (b!"," ++ k)
    else pure []
  .ok (b!"{\"Name\":\"" ++ JsonEscape s.Name ++ b!"\",\"Type\":\"" ++ GetSheetTypeStr s.kind ++
    b!"\",\"Visiblity\":\"" ++ GetVisibilityStr s.Visiblity ++ b!"\",\"Offset\":" ++ dec s.Offset ++ kids ++ b!"}")

/-- Sheet.hpp:29-42 `ToXml`. -/
def sheetXml (abi : Abi) (fmt : Fmt) (master : List Rec) (s : Sheet) : Res Bytes := do
  let kids ← if s.children.length > 0 then substreamXml abi fmt master s.children else pure []
  .ok (b!"<Sheet><Name>" ++ XmlEscape s.Name ++ b!"</Name><Type>" ++ GetSheetTypeStr s.kind ++
    b!"</Type><Visiblity>" ++ GetVisibilityStr s.Visiblity ++ b!"</Visiblity><Offset>" ++ dec s.Offset ++
    b!"</Offset>" ++ kids ++ b!"</Sheet>")

/-- `std::exception::what()` of the exceptions that leave `ParseStream`; the texts are the library's or the
program's and are not fixed here. -/
abbrev What := Exc → Bytes

/-- ExcelExtensionInfo.hpp:17-28 and 80-94: the object `Detailer` makes. -/
structure ExcelInfo where
  base : ExtInfo
  eng : Eng
  error : Bytes
  deriving Repr

/-- ExcelExtensionInfo.hpp:79-86: what is kept when `ParseStream` throws. -/
def errorText (what : What) : Res Unit → Res Bytes
  | .ok _ => .ok []
  | .throw x => .ok (what x)
  | .ub u => .ub u
  | .fuel => .fuel

/-- ExcelExtensionInfo.hpp:74-95 `Detailer`. The engine's `Version` is copied even if it was never assigned. -/
def Detailer (abi : Abi) (fmt : Fmt) (what : What) (fuel : Nat) (stream : Bytes) : Res ExcelInfo := do
  let p := ParseStream abi fmt fuel stream
  let error ← errorText what p.2
  match p.1.Version with
  | none => .ub .uninit
  | some v =>
    .ok {
      base := { Extension := b!"xls", Name := b!"Microsoft Office Excel Workbook", SubType := GetVersion_Excel v,
                Version := v, VersionName := GetVersion_Excel v }
      eng := p.1, error }

/-- Print every sheet. -/
def printSheets (print : Sheet → Res Bytes) : List Sheet → Res (List Bytes)
  | [] => .ok []
  | s :: ss => do
    let x ← print s
    let xs ← printSheets print ss
    .ok (x :: xs)

/-- ExcelExtensionInfo.hpp:29-49 `ToJson`. `base` is what the virtual `buildBaseJson` gives. -/
def ExcelInfo.toJson (abi : Abi) (fmt : Fmt) (base : Bytes) (x : ExcelInfo) : Res Bytes := do
  let globals ← substreamJson abi fmt x.eng.master x.eng.global
  let sheets ← printSheets (sheetJson abi fmt x.eng.master) x.eng.sheets
  .ok (b!"{" ++ base ++ b!", \"globals\": { " ++ globals ++ b!"}" ++
    (if sheets.length > 0 then b!", \"sheets\": [" ++ vectorJoin sheets b!"," ++ b!"]" else []) ++
    (if x.error ≠ [] then b!", \"ERROR\": \"" ++ x.error ++ b!"\"" else []) ++ b!"}")

/-- ExcelExtensionInfo.hpp:50-71 `ToXml`. `base` is what the virtual `buildBaseXml` gives. -/
def ExcelInfo.toXml (abi : Abi) (fmt : Fmt) (base : Bytes) (x : ExcelInfo) : Res Bytes := do
  let globals ← substreamXml abi fmt x.eng.master x.eng.global
  let sheets ← printSheets (sheetXml abi fmt x.eng.master) x.eng.sheets
  .ok (b!"<item>" ++ base ++ b!"<globals>" ++ globals ++ b!"</globals>" ++
    (if sheets.length > 0 then b!"<sheets>" ++ sheets.flatten ++ b!"</sheets>" else []) ++
    (if x.error ≠ [] then b!"<ERROR>" ++ x.error ++ b!"</ERROR>" else []) ++ b!"</item>")

end Fileid.Excel
