import Verif.Model.VbaProject
import Verif.Model.Propset
import Verif.Model.ExcelEngine
import Verif.Model.OfficeVersions

/-!
# Model of `fileid/oless/oless.hpp`, `OleCommon.hpp` and `olessmagic.h`

The walk through the storages of a compound file, what is decided for each storage and stream, and the printed
results. (Simplification throughout: memory never runs out.)
-/

namespace Fileid.Oless

open Common Pole Vba

/-! ## The table -/

/-- The functions an entry of the table may refer to (`OlessDataFunc`, OleCommon.hpp:60). -/
inductive Func
  | none | word | excel | ppt | pub | visio | wp | msi
  deriving DecidableEq, Repr

/-- OleCommon.hpp:62-82 `OlessInfo`. -/
structure OlessInfo where
  Extension : Bytes
  Name : Bytes
  Version : Bytes
  SubType : Bytes
  ignoreCase : Bool
  matcher : WStr
  extraFunc : Func
  deriving DecidableEq, Repr

/-- OleCommon.hpp:70-81, the constructor: the argument `sub` is not used, so `SubType` stays empty. -/
def OlessInfo.make (ext n ver _sub : Bytes) (ignore : Bool) (matcher : WStr) (f : Func) : OlessInfo :=
  { Extension := ext, Name := n, Version := ver, SubType := [], ignoreCase := ignore, matcher, extraFunc := f }

/-- olessmagic.h:13-38, the entries `initList` appends to the global list. -/
def table : List OlessInfo := [
  OlessInfo.make b!"irm" b!"Microsoft Office Information Rights Managed File" [] b!"drm" false (wide b!"/DRMContent") .none,
  OlessInfo.make b!"irm" b!"Microsoft Office Encrypted Office File" [] b!"encrypted" false (wide b!"/" ++ [0x0006] ++ wide b!"DataSpaces/DataSpaceMap") .none,
  OlessInfo.make b!"doc" b!"Microsoft Office Word File" [] [] false (wide b!"/WordDocument") .word,
  OlessInfo.make b!"xls" b!"Microsoft Office Excel File" [] [] true (wide b!"/Workbook") .excel,
  OlessInfo.make b!"xls" b!"Microsoft Office Excel File" [] [] true (wide b!"/Book") .excel,
  OlessInfo.make b!"ppt" b!"Microsoft Office PowerPoint File" [] [] false (wide b!"/PowerPoint Document") .ppt,
  OlessInfo.make b!"ppt" b!"Microsoft Office PowerPoint File" b!"Powerpoint 4.0" [] false (wide b!"/PP40") .none,
  OlessInfo.make b!"pub" b!"Microsoft Office Publisher File" [] [] false (wide b!"/Contents") .pub,
  OlessInfo.make b!"vsd" b!"Microsoft Office Visio File" [] [] false (wide b!"/VisioDocument") .visio,
  OlessInfo.make b!"msg" b!"Microsoft Office Outlook Mail Message" [] [] false (wide b!"/__properties_version1.0") .none,
  OlessInfo.make b!"obd" b!"Microsoft Office Binder" [] [] false (wide b!"/Binder") .none,
  OlessInfo.make b!"mpp" b!"Microsoft Project File" b!"Project 9" b!"Office 2003" false (wide b!"/Props9") .none,
  OlessInfo.make b!"mpp" b!"Microsoft Project File" b!"Project 12" b!"Office 2007" false (wide b!"/Props12") .none,
  OlessInfo.make b!"mpp" b!"Microsoft Project File" b!"Project 14" b!"Office 2010" false (wide b!"/Props14") .none,
  OlessInfo.make b!"bup" b!"McAfee Quarantied File" [] [] false (wide b!"/Details") .none,
  OlessInfo.make b!"wps" b!"Microsoft Works File" [] [] false (wide b!"/CONTENTS") .none,
  OlessInfo.make b!"wps" b!"Microsoft Works File" [] [] false (wide b!"/MatOST") .none,
  OlessInfo.make b!"sdc" b!"StarOffice Calc File" [] [] false (wide b!"/StarCalcDocument") .none,
  OlessInfo.make b!"sdw" b!"StarOffice Write File" [] [] false (wide b!"/StarWriterDocument") .none,
  OlessInfo.make b!"hwp" b!"Hangul Word Processor File" [] [] false (wide b!"/HwpSummaryInformation") .none,
  OlessInfo.make b!"hwp" b!"Hangul Word Processor File" [] [] false (wide b!"/" ++ [0x0005] ++ wide b!"HwpSummaryInformation") .none,
  OlessInfo.make b!"wp" b!"WordPerfect File" [] [] false (wide b!"/PerfectOffice_MAIN") .wp,
  OlessInfo.make b!"msi" b!"Microsoft Installer File" [] [] false (wide b!"/" ++ [0x4840, 0x3F3F, 0x4577, 0x446C, 0x3B6A, 0x45E4, 0x4824]) .msi,
  OlessInfo.make b!"ole_embedded" b!"OLE Native Stream (Embedded Object)" [] [] true (wide b!"/" ++ [0x0001] ++ wide b!"Ole10Native") .none,
  OlessInfo.make b!"ole_dat" b!"Internet Explorer Recovery Store" [] [] false (wide b!"/TravelLog") .none,
  OlessInfo.make b!"ole_eq" b!"OLE Equation Editor" [] [] true (wide b!"/Equation Native") .none]

/-! ## Results -/

/-- OleCommon.hpp:85-149, what an `OLESSExtensionInfo` has beyond an `ExtensionInfo`: paths and properties (a
`std::map`, in the order of its keys). -/
structure Extra where
  paths : List WStr := []
  properties : List (WStr × List Propset.Property) := []
  deriving Repr

/-- The objects in `m_results`: `OLESSExtensionInfo`, `ExcelExtensionInfo` (derived from it),
`WordPerfectExtensionInfo` and `VbaExtensionInfo`. -/
inductive Result
  | ole (e : ExtInfo) (x : Extra)
  | excel (i : Excel.ExcelInfo) (x : Extra)
  | wp (e : ExtInfo)
  | vba (v : VbaInfo)
  deriving Repr

/-- The members every result has from `ExtensionInfo`. -/
def Result.base : Result → ExtInfo
  | ole e _ => e
  | excel i _ => i.base
  | wp e => e
  | vba v => v.base

/-- What the library and the environment contribute: see `Excel.Fmt`, `Excel.What` and `Propset.Env`; `sliced` is
`what()` of an exception caught by value as `std::exception`; `fuel` is the step budget of the workbook parser. -/
structure Env where
  fmt : Excel.Fmt
  what : Excel.What
  sliced : Exc → Bytes
  props : Propset.Env
  fuel : Nat

/-- OleCommon.hpp:150-153, the constructor of `OLESSExtensionInfo`. -/
def newOle : ExtInfo := { Extension := b!"oless", VersionName := b!"OLE Structured Storage" }

/-! ## Streams -/

/-- OleCommon.hpp:43-58 `ReadStream`: nothing when fewer bytes than the size could be read. -/
def ReadStream (abi : Abi) (io : StorageIO) (name : WStr) : Res Bytes := do
  let s ← io.streamIO abi name
  let size := streamSize s
  let r ← streamRead io s 0 (newMem size) size
  if r.1 = size then memBytes r.2 else .ok []

/-- propset/DocumentSummary.hpp:38-81 `ParseStream`: nothing when fewer bytes than the size could be read. -/
def parseProperties (abi : Abi) (io : StorageIO) (name : WStr) : Res (List Propset.Property) := do
  let s ← io.streamIO abi name
  let size := streamSize s
  let r ← streamRead io s 0 (newMem size) size
  if r.1 = size then do
    let buffer ← memBytes r.2
    Propset.parseContent abi buffer
  else .ok []

/-! ## One storage or stream -/

/-- The members of `Oless` that change. -/
structure St where
  paths : List WStr := []
  results : List Result := []
  properties : List (WStr × List Propset.Property) := []
  deriving Repr

/-- `std::map::insert`: an entry with the key already there stays as it is. -/
def mapInsert (abi : Abi) (k : WStr) (v : List Propset.Property) :
    List (WStr × List Propset.Property) → List (WStr × List Propset.Property)
  | [] => [(k, v)]
  | (k', v') :: rest =>
    if wcompare abi k k' < 0 then (k, v) :: (k', v') :: rest
    else if wcompare abi k k' = 0 then (k', v') :: rest
    else (k', v') :: mapInsert abi k v rest

/-- oless.hpp:55, the names of storages that hold a VBA project. -/
def isVbaStorage (name full : WStr) : Bool :=
  name == wide b!"Macros" || name == wide b!"_VBA_PROJECT_CUR" || full == wide b!"/VBA" ||
    full == wide b!"/VBA_Project"

/-- oless.hpp:56-65: the result of the analysis, or of its failure. -/
def vbaResult (env : Env) : Res VbaInfo → Res Result
  | .ok v => .ok (.vba v)
  | .throw x =>
    let v : VbaInfo := {}
    .ok (.vba { v with ProjectName := env.sliced x, base := { v.base with SubType := b!"ERROR" } })
  | .ub u => .ub u
  | .fuel => .fuel

/-- oless.hpp:69, the names of streams that hold properties. -/
def isPropertyStream (name : WStr) : Bool :=
  name == 5 :: wide b!"DocumentSummaryInformation" || name == 5 :: wide b!"SummaryInformation" ||
    name == wide b!"GlobalInfo" || name == wide b!"ImageContents" || name == wide b!"ImageInfo"

/-- oless.hpp:70-80: a `range_error` leaves the map as it is, any other exception goes on. -/
def addProperties (abi : Abi) (full : WStr) (st : St) : Res (List Propset.Property) → Res St
  | .ok ps => .ok { st with properties := mapInsert abi full ps st.properties }
  | .throw .rangeError => .ok st
  | .throw x => .throw x
  | .ub u => .ub u
  | .fuel => .fuel

/-- The function an entry refers to, applied to a new `OLESSExtensionInfo` `e` and the content of the stream.
wordperfect.hpp:131-135 `StreamDetailer` makes a new object that keeps a pointer into the content.
ExcelExtensionInfo.hpp:74-95 `Detailer` makes a new object, too. -/
def detail (abi : Abi) (env : Env) (io : StorageIO) (f : Func) (e : ExtInfo) (content : Bytes) : Res Result :=
  match f with
  | .none => .ok (.ole e {})
  | .word => do let e ← Office.wordDetailer e content; .ok (.ole e {})
  | .pub => do let e ← Office.pubDetailer abi e content; .ok (.ole e {})
  | .visio => do let e ← Office.visioDetailer e content; .ok (.ole e {})
  | .ppt => do
    let user ← ReadStream abi io (wide b!"/Current User")
    let e ← Office.pptDetailer abi e user content
    .ok (.ole e {})
  | .msi => .ok (.ole (Office.msiDetailer e content) {})
  | .excel => do let i ← Excel.Detailer abi env.fmt env.what env.fuel content; .ok (.excel i {})
  | .wp => .ok (.wp { Extension := b!"wp", VersionName := b!"Word Perfect File" })

/-- oless.hpp:90. -/
def OlessInfo.isMatch (i : OlessInfo) (full : WStr) : Bool :=
  (i.ignoreCase && iequalsW full i.matcher) || full == i.matcher

/-- oless.hpp:92-102, the result for an entry that matches. -/
def entryResult (abi : Abi) (env : Env) (io : StorageIO) (full : WStr) (i : OlessInfo) : Res Result := do
  let e : ExtInfo := { Extension := i.Extension, VersionName := i.Version, SubType := i.SubType, Name := i.Name }
  if i.extraFunc = .none then .ok (.ole e {})
  else do
    let content ← ReadStream abi io full
    detail abi env io i.extraFunc e content

/-- oless.hpp:83-104, the loop over the table; `ei` is the last result. -/
def tableLoop (abi : Abi) (env : Env) (io : StorageIO) (full : WStr) : List OlessInfo → Option Result →
    Res (Option Result)
  | [], ei => .ok ei
  | i :: rest, ei =>
    if i.isMatch full then do
      let r ← entryResult abi env io full i
      tableLoop abi env io full rest (some r)
    else tableLoop abi env io full rest ei

/-- oless.hpp:106-108. -/
def pushResult (st : St) : Option Result → St
  | none => st
  | some r => { st with results := st.results ++ [r] }

/-- oless.hpp:50-109 `guessStreamInfo`; `list` is the global table. -/
def guessStreamInfo (abi : Abi) (env : Env) (list : List OlessInfo) (io : StorageIO) (st : St) (name full : WStr) :
    Res St := do
  let d ← io.isDirectory abi full
  if d then
    if isVbaStorage name full then do
      let r ← vbaResult env (Analyze abi io full)
      .ok (pushResult st (some r))
    else .ok st
  else if isPropertyStream name then addProperties abi full st (parseProperties abi io full)
  else do
    let ei ← tableLoop abi env io full list none
    .ok (pushResult st ei)

/-! ## The walk -/

/-- A loop whose body may fail. -/
def foldRes {α σ : Type} (f : σ → α → Res σ) : σ → List α → Res σ
  | s, [] => .ok s
  | s, a :: as => do
    let s ← f s a
    foldRes f s as

/-- oless.hpp:110-130 `recurse`; the first argument bounds the depth of the recursion. `push` appends to `m_paths`. -/
def recurse {σ : Type} (abi : Abi) (io : StorageIO) (push : σ → WStr → σ) (callback : σ → WStr → WStr → Res σ) :
    Nat → WStr → σ → Res σ
  | 0, _, _ => .fuel
  | depth + 1, path, st => do
    let entries ← io.entries abi path
    foldRes (fun st name => do
      let st ← callback st name (path ++ name)
      let d ← io.isDirectory abi (path ++ name)
      if d then recurse abi io push callback depth (path ++ name ++ [47]) st
      else .ok (push st (path ++ name))) (push st path) entries

/-- `m_paths.push_back`. -/
def St.pushPath (st : St) (p : WStr) : St := { st with paths := st.paths ++ [p] }

/-- oless.hpp:152-158: the first result that is an `OLESSExtensionInfo` gets the paths and properties. -/
def giveExtra (x : Extra) : List Result → List Result
  | [] => []
  | .ole e _ :: rest => .ole e x :: rest
  | .excel i _ :: rest => .excel i x :: rest
  | r :: rest => r :: giveExtra x rest

/-- oless.hpp:146-161, the results of `Guess` from the members after the walk. -/
def finish (st : St) : List Result :=
  let x : Extra := ⟨st.paths, st.properties⟩
  if st.results.length = 0 then [.ole newOle x] else giveExtra x st.results

/-- oless.hpp:138-162 `Guess` on a new object; `list` is the global table, `depth` bounds the recursion. -/
def Guess (abi : Abi) (env : Env) (list : List OlessInfo) (depth : Nat) (file : File) : Res (List Result) := do
  let o ← openStorage abi file
  match o with
  | .opened io => do
    let st ← recurse abi io St.pushPath (guessStreamInfo abi env list io) depth [47] {}
    .ok (finish st)
  | _ => .ok (finish {})

/-- oless.hpp:219-223 `Detailer`: the global table afterwards and the results. -/
def Detailer (abi : Abi) (env : Env) (list : List OlessInfo) (depth : Nat) (file : File) :
    List OlessInfo × Res (List Result) :=
  (list ++ table, Guess abi env (list ++ table) depth file)

/-! ## Printing -/

/-- `common::convert(path.c_str())`: the text ends before the first null. -/
def pathText (abi : Abi) (p : WStr) : Res Bytes := Excel.convert abi (p.takeWhile (· ≠ 0))

/-- A loop that collects results. -/
def mapRes {α β : Type} (f : α → Res β) : List α → Res (List β)
  | [] => .ok []
  | a :: as => do
    let b ← f a
    let bs ← mapRes f as
    .ok (b :: bs)

/-- OleCommon.hpp:102-111, a group of properties in JSON. -/
def groupJson (abi : Abi) (env : Env) (g : WStr × List Propset.Property) : Res Bytes := do
  let key ← Excel.convert abi g.1
  .ok (b!"{\"Group\":\"" ++ JsonEscape key ++ b!"\",\"properties\": [" ++
    vectorJoin (g.2.map (·.toJson env.props)) b!"," ++ b!"]}")

/-- OleCommon.hpp:87-116 `buildBaseJson`. -/
def baseJson (abi : Abi) (env : Env) (e : ExtInfo) (x : Extra) : Res Bytes := do
  let paths ← mapRes (pathText abi) x.paths
  let groups ← mapRes (groupJson abi env) x.properties
  .ok (e.buildBaseJson ++
    (if x.paths.length > 0 then
      b!", \"Paths\": [" ++ vectorJoin (paths.map fun p => b!"\"" ++ JsonEscape p ++ b!"\"") b!"," ++ b!"]" else []) ++
    (if x.properties.length > 0 then b!",\"properties\": [" ++ vectorJoin groups b!"," ++ b!"]" else []))

/-- OleCommon.hpp:129-142, a group of properties in XML. -/
def groupXml (abi : Abi) (env : Env) (g : WStr × List Propset.Property) : Res Bytes := do
  let key ← Excel.convert abi g.1
  .ok (b!"<Group><Name>" ++ XmlEscape key ++ b!"</Name><properties>" ++ (g.2.map (·.toXml env.props)).flatten ++
    b!"</properties></Group>")

/-- OleCommon.hpp:117-147 `buildBaseXml`. -/
def baseXml (abi : Abi) (env : Env) (e : ExtInfo) (x : Extra) : Res Bytes := do
  let paths ← mapRes (pathText abi) x.paths
  let groups ← mapRes (groupXml abi env) x.properties
  .ok (e.buildBaseXml ++
    (if x.paths.length > 0 then
      b!"<Paths>" ++ vectorJoin (paths.map fun p => b!"<Path>" ++ XmlEscape p ++ b!"</Path>") b!"," ++ b!"</Paths>"
     else []) ++
    (if x.properties.length > 0 then b!"<properties>" ++ groups.flatten ++ b!"</properties>" else []))

/-- The virtual `ToJson` (OleCommon.hpp:155-161, ExcelExtensionInfo.hpp:29-49, wordperfect.hpp:87-99,
vbahelper.hpp:140-174). The pointer of a WordPerfect result leads to the content of the stream, a parameter of
`StreamDetailer` passed by value, which no longer exists. -/
def Result.toJson (abi : Abi) (env : Env) : Result → Res Bytes
  | .ole e x => do let b ← baseJson abi env e x; .ok (b!"{" ++ b ++ b!"}")
  | .excel i x => do let b ← baseJson abi env i.base x; i.toJson abi env.fmt b
  | .wp _ => .ub .dangling
  | .vba v => .ok v.toJson

/-- The virtual `ToXml` (OleCommon.hpp:162-168, ExcelExtensionInfo.hpp:50-71, wordperfect.hpp:100-113,
vbahelper.hpp:175-216). -/
def Result.toXml (abi : Abi) (env : Env) : Result → Res Bytes
  | .ole e x => do let b ← baseXml abi env e x; .ok (b!"<item>" ++ b ++ b!"</item>")
  | .excel i x => do let b ← baseXml abi env i.base x; i.toXml abi env.fmt b
  | .wp _ => .ub .dangling
  | .vba v => .ok v.toXml

/-- OleCommon.hpp:169-175 and wordperfect.hpp:114-120 `ToText`. -/
def oleText (e : ExtInfo) : Bytes := e.Extension ++ b!"\t" ++ e.VersionName ++ b!"\t" ++ dec e.Version

/-- OleCommon.hpp:176-182 and wordperfect.hpp:121-127 `ToCsv`. -/
def oleCsv (e : ExtInfo) : Bytes := e.Extension ++ b!"," ++ e.VersionName ++ b!"," ++ dec e.Version

/-- The virtual `ToText`. `VbaExtensionInfo::ToText` (vbahelper.hpp:217-228) is not `const` and so does not override
the function of the base class. -/
def Result.toText : Result → Bytes
  | .ole e _ => oleText e
  | .excel i _ => oleText i.base
  | .wp e => oleText e
  | .vba v => v.base.toText

/-- The virtual `ToCsv`. -/
def Result.toCsv : Result → Bytes
  | .ole e _ => oleCsv e
  | .excel i _ => oleCsv i.base
  | .wp e => oleCsv e
  | .vba v => v.base.toCsv

/-- What one export function gives. -/
def Result.print (abi : Abi) (env : Env) (r : Result) : OutputFormat → Res Bytes
  | .json => r.toJson abi env
  | .xml => r.toXml abi env
  | .text => .ok r.toText
  | .csv => .ok r.toCsv

/-- common.hpp:692-731 `Output`, `main`'s report for a compound file: only the export function of the format is
called, and what it throws ends the program. -/
def report (abi : Abi) (env : Env) (format : OutputFormat) (file : Bytes) (rs : List Result) : Res Bytes := do
  let texts ← mapRes (fun r => r.print abi env format) rs
  .ok (Output format file b!"extensions" (texts.map fun t => ⟨{}, t, t, t, t⟩))

/-! ## Listing and extraction -/

/-- OleCommon.hpp:185-188 `OleSummary`. -/
structure OleSummary where
  FullName : Bytes
  Size : Nat
  deriving DecidableEq, Repr

/-- OleCommon.hpp:190-194 `ToJson`. -/
def OleSummary.toJson (s : OleSummary) : Bytes :=
  b!"{ \"path\" : \"" ++ JsonEscape s.FullName ++ b!"\", \"size\" : \"" ++ dec s.Size ++ b!"\"}"

/-- oless.hpp:38-49 `printStreamInfo`: `fail()` is false for every stream that could be opened. -/
def printStreamInfo (abi : Abi) (io : StorageIO) (st : List OleSummary) (_name full : WStr) : Res (List OleSummary) := do
  let d ← io.isDirectory abi full
  if d then .ok st
  else do
    let s ← io.streamIO abi full
    match s with
    | none => .ok st
    | some s => do
      let text ← Excel.convert abi full
      .ok (st ++ [⟨text, s.entry.size⟩])

/-- oless.hpp:163-180 `List`. -/
def List_ (abi : Abi) (depth : Nat) (file : File) : Res (List OleSummary) := do
  let o ← openStorage abi file
  match o with
  | .opened io => recurse abi io (fun st _ => st) (printStreamInfo abi io) depth [47] []
  | _ => .ok []

/-- oless.hpp:189-194, the loop of `Dump`; the first argument is the step budget, `pos` the position of the
stream, `out` what was written. -/
def dumpLoop (io : StorageIO) (s : StreamIO) : Nat → Nat → Bytes → Res Bytes
  | 0, _, _ => .fuel
  | fuel + 1, pos, out => do
    let r ← s.readAt io pos (newMem 16) 16
    let bs ← memBytes (r.2.take r.1)
    if r.1 < 16 then .ok (out ++ bs) else dumpLoop io s fuel (pos + r.1) (out ++ bs)

/-- oless.hpp:182-203 `Dump`: what is written to the output file; `none` when no file is made. -/
def Dump (abi : Abi) (file : File) (name : WStr) : Res (Option Bytes) := do
  let o ← openStorage abi file
  match o with
  | .opened io => do
    let s ← io.streamIO abi name
    match s with
    | none => .ok none
    | some s => do
      let out ← dumpLoop io s (s.entry.size + 1) 0 []
      .ok (some out)
  | _ => .ok none

end Fileid.Oless
