import Verif.Model.Common
import Verif.Model.Tables

/-!
# Model of `fileid/zip/ziphelper.hpp`

The archive library (ziplib, not part of the repository) is represented by the list of entries it reports.
The global `extMap` is an explicit argument and result.
-/

namespace Fileid.Zip

open Common Tables

/-- What ziplib reports about one entry of an opened archive. `Data` is the decompressed content, `none` when
`GetDecompressionStream` returns a null pointer. -/
structure Entry where
  FullName : Bytes
  Size : Nat := 0
  CompressedSize : Nat := 0
  IsPasswordProtected : Bool := false
  IsDeflate : Bool := false
  Comment : Bytes := []
  Crc32 : Nat := 0
  Data : Option Bytes := some []
  deriving DecidableEq, Repr

/-- An opened archive: its entries in order (`archive->GetEntry(int)`). -/
abbrev Archive := List Entry

/-- `archive->GetEntry(name)` of ziplib: the first entry with that full name, or a null pointer. -/
def GetEntry (a : Archive) (name : Bytes) : Option Entry := a.find? fun e => decide (e.FullName = name)

/-- ziphelper.hpp:25-35 `ZipFileInfo`. -/
structure ZipFileInfo where
  Name : Bytes
  Size : Nat
  CompressedSize : Int
  IsPassworded : Bool
  CompressionMethod : Bytes
  Comment : Bytes
  CRC32 : Nat
  deriving DecidableEq, Repr

/-- `os << b` for a bool without `boolalpha`. -/
def showBool (b : Bool) : Bytes := if b then b!"1" else b!"0"

/-- ziphelper.hpp:61-70, the JSON object of one child. -/
def ZipFileInfo.toJson (i : ZipFileInfo) : Bytes :=
  b!"{" ++ b!"\"Name\":\"" ++ i.Name ++ b!"\"" ++
  b!", \"Size\":\"" ++ dec i.Size ++ b!"\"" ++
  b!", \"CompressedSize\":\"" ++ decInt i.CompressedSize ++ b!"\"" ++
  b!", \"CompressionMethod\":\"" ++ i.CompressionMethod ++ b!"\"" ++
  b!", \"IsPassworded\":\"" ++ showBool i.IsPassworded ++ b!"\"" ++
  b!", \"Comment\":\"" ++ i.Comment ++ b!"\"" ++
  b!", \"CRC32\":\"" ++ dec i.CRC32 ++ b!"\"" ++ b!"}"

/-- ziphelper.hpp:59-71, the children, each but the first preceded by a comma. -/
def childrenJson : Bool → List ZipFileInfo → Bytes
  | _, [] => []
  | first, i :: is => (if first then [] else b!",") ++ i.toJson ++ childrenJson false is

/-- ziphelper.hpp:89-97, the XML element of one child. -/
def ZipFileInfo.toXml (i : ZipFileInfo) : Bytes :=
  b!"<file>" ++ (b!"<Name>" ++ i.Name ++ b!"</Name>") ++
  (b!"<Size>" ++ dec i.Size ++ b!"</Size>") ++
  (b!"<CompressedSize>" ++ decInt i.CompressedSize ++ b!"</CompressedSize>") ++
  (b!"<CompressionMethod>" ++ i.CompressionMethod ++ b!"</CompressionMethod>") ++
  (b!"<IsPassworded>" ++ showBool i.IsPassworded ++ b!"</IsPassworded>") ++
  (b!"<Comment>" ++ i.Comment ++ b!"</Comment>") ++
  (b!"<CRC32>" ++ dec i.CRC32 ++ b!"</CRC32>") ++ b!"</file>"

/-- ziphelper.hpp:47-75 `ZipExtensionInfo::ToJson`. -/
def zipJson (e : ExtInfo) (children : List ZipFileInfo) : Bytes :=
  b!"{ \"extension\" : \"" ++ e.Extension ++ b!"\"" ++
  (if e.Name.length > 0 then b!", \"name\":\"" ++ e.Name ++ b!"\"" else []) ++
  (if e.SubType.length > 0 then b!", \"subtype\":\"" ++ JsonEscape e.SubType ++ b!"\"" else []) ++
  (if children.length > 0 then b!", \"children\":[" ++ childrenJson true children ++ b!"]" else []) ++
  b!"}"

/-- ziphelper.hpp:76-103 `ZipExtensionInfo::ToXml`. -/
def zipXml (e : ExtInfo) (children : List ZipFileInfo) : Bytes :=
  b!"<item>" ++ (b!"<extension>" ++ e.Extension ++ b!"</extension>") ++
  (if e.Name.length > 0 then b!"<name>" ++ e.Name ++ b!"</name>" else []) ++
  (if e.SubType.length > 0 then b!"<subtype>" ++ XmlEscape e.SubType ++ b!"</subtype>" else []) ++
  (if children.length > 0 then
    b!"<children>" ++ (children.map ZipFileInfo.toXml).flatten ++ b!"</children>" else []) ++
  b!"</item>"

/-- ziphelper.hpp:104-112 `ZipExtensionInfo::ToText`. -/
def zipText (e : ExtInfo) : Bytes :=
  e.Extension ++ b!"\t" ++ e.Name ++ b!"\t" ++ e.SubType ++ b!"\t" ++ dec e.Version ++ b!"\t" ++ e.VersionName

/-- ziphelper.hpp:113-121 `ZipExtensionInfo::ToCsv`. -/
def zipCsv (e : ExtInfo) : Bytes :=
  e.Extension ++ b!"," ++ e.Name ++ b!"," ++ e.SubType ++ b!"," ++ dec e.Version ++ b!"," ++ e.VersionName

/-- ziphelper.hpp:37-45 the constructor of `ZipExtensionInfo`, with the children added by `getZipDetails`. -/
def zipItem (children : List ZipFileInfo) : Item :=
  let e : ExtInfo := { Extension := b!"zip", Name := b!"Zip File" }
  ⟨e, zipJson e children, zipXml e children, zipText e, zipCsv e⟩

/-- ziphelper.hpp:444-461 `getZipDetails`: the children. The conversions to `int` and `unsigned int` are those
of the member types (`CompressedSize`, `CRC32`). -/
def childInfo (e : Entry) : ZipFileInfo :=
  { Name := e.FullName, Size := e.Size, CompressedSize := toSigned 32 e.CompressedSize,
    IsPassworded := e.IsPasswordProtected,
    CompressionMethod := if e.IsDeflate then b!"DEFLATE" else b!"stored",
    Comment := e.Comment, CRC32 := u32 e.Crc32 }

/-- The global `extMap` (the keys present) and the result vector of the running call. -/
structure St where
  extMap : List Bytes
  ans : List Item

/-- ziphelper.hpp:125-132 `hasEnding`. -/
def hasEnding (fullString ending : Bytes) : Bool :=
  if fullString.length ≥ ending.length then
    decide (fullString.drop (fullString.length - ending.length) = ending)
  else false

/-- ziphelper.hpp:134-142 `CheckEntry`. -/
def CheckEntry (a : Archive) (ans : List Item) (m : Bytes × Bytes × Bytes) : List Item :=
  match GetEntry a m.1 with
  | some _ => ans ++ [Item.generic { Extension := m.2.1, Name := m.2.2 }]
  | none => ans

/-- ziphelper.hpp:144-150 `addExtension`. -/
def addExtension (st : St) (item : Item) : St :=
  if item.info.Extension ∈ st.extMap then st
  else { extMap := item.info.Extension :: st.extMap, ans := st.ans ++ [item] }

/-- The if-chains of `CheckContentType` (153-279) and `CheckMimeType` (281-384): the first comparison that
holds adds its item. -/
def checkType (t : List (Bytes × Bytes × Bytes)) (st : St) (value : Bytes) : St :=
  match t.find? fun e => decide (e.1 = value) with
  | some e => addExtension st (Item.generic { Extension := e.2.1, Name := e.2.2 })
  | none => st

/-- ziphelper.hpp:153-279 `CheckContentType`. -/
def CheckContentType (st : St) (contentType : Bytes) : St := checkType zipContentTypes st contentType
/-- ziphelper.hpp:281-384 `CheckMimeType`. -/
def CheckMimeType (st : St) (mimeType : Bytes) : St := checkType zipMimeTypes st mimeType

/-- ziphelper.hpp:386-396 `GetFile`. -/
def GetFile (e : Entry) : Bytes := e.Data.getD []

/-- ziphelper.hpp:414-440, the loop of `GetVBA` over the names of the binary files; the last one decides.
`analyze` is what writing the content to a temporary file, opening it as compound file and
`vbahelper::Analyze` with its `catch` give. A null stream is dereferenced (line 424). -/
def vbaLoop (analyze : Bytes → Res Item) (a : Archive) : List Bytes → Item → Res Item
  | [], ei => .ok ei
  | f :: fs, _ =>
    match (GetEntry a f).bind (·.Data) with
    | some d => do let ei ← analyze d; vbaLoop analyze a fs ei
    | none => .ub .nullDeref

/-- ziphelper.hpp:398-442 `GetVBA`. -/
def GetVBA (analyze : Bytes → Res Item) (a : Archive) : Res Item :=
  vbaLoop analyze a ((a.map (·.FullName)).filter fun f => hasEnding f b!"bin")
    (Item.generic { Extension := b!"vba", Name := b!"Visual Basic For Applications" })

/-- Index of the first occurrence of `pat` in `s`. -/
def findAt (pat : Bytes) : Bytes → Option Nat
  | [] => if pat.isEmpty then some 0 else none
  | c :: cs => if pat.isPrefixOf (c :: cs) then some 0 else (findAt pat cs).map (· + 1)

/-- `s.find(pat, pos)`: the first occurrence at or after `pos`; none when `pos` is past the end. -/
def find (pat s : Bytes) (pos : Nat) : Option Nat :=
  if pos ≤ s.length then (findAt pat (s.drop pos)).map (· + pos) else none

/-- The search text of the scan, `ContentType="`. -/
def ctPat : Bytes := b!"ContentType=\""

/-- ziphelper.hpp:493-508, the loop of the scan; `start` is the position of a match or `npos`. `step` is the
body for one value (498-502). The first argument is the step budget. Positions are far below 2^64, so no
wrap-around is modelled; `substr` cannot throw because `start - 1 < size`. -/
def scanLoop {σ : Type} (step : σ → Bytes → Res σ) (text : Bytes) : Nat → Option Nat → σ → Res σ
  | 0, _, _ => .fuel
  | _ + 1, none, st => .ok st
  | f + 1, some start, st =>
    let start := start + 14
    match find b!"\"" text start with
    | some e => do
      let ctype := (text.drop (start - 1)).take (e - start + 1)
      let st ← step st ctype
      scanLoop step text f (find ctPat text (e + 1)) st
    | none => .ok st

/-- ziphelper.hpp:498-502, the body of the scan for one value. -/
def scanStep (analyze : Bytes → Res Item) (a : Archive) (st : St) (ctype : Bytes) : Res St := do
  let st := CheckContentType st ctype
  if ctype = b!"application/vnd.ms-office.vbaProject" then do
    let it ← GetVBA analyze a
    .ok (addExtension st it)
  else .ok st

/-- ziphelper.hpp:492-508, the scan of one text. -/
def scan {σ : Type} (step : σ → Bytes → Res σ) (text : Bytes) (st : σ) : Res σ :=
  scanLoop step text (text.length + 1) (find ctPat text 0) st

/-- ziphelper.hpp:488-511, the part of `Detailer` for Office Open XML packages. -/
def ooxmlPart (analyze : Bytes → Res Item) (a : Archive) (st : St) : Res St :=
  match GetEntry a b!"[Content_Types].xml" with
  | some e => if (GetFile e).length ≠ 0 then scan (scanStep analyze a) (GetFile e) st else .ok st
  | none => .ok st

/-- ziphelper.hpp:513-520, the part of `Detailer` for OpenDocument packages. -/
def odfPart (a : Archive) (st : St) : St :=
  match GetEntry a b!"mimetype" with
  | some e => if (GetFile e).length ≠ 0 then CheckMimeType st (GetFile e) else st
  | none => st

/-- ziphelper.hpp:463-526 `Detailer` on an opened archive. The first argument is the global `extMap` before
the call; the new one is returned with the result. -/
def Detailer (analyze : Bytes → Res Item) (extMap : List Bytes) (a : Archive) : Res (List Item × List Bytes) := do
  let ans := zipMarkers.foldl (CheckEntry a) []
  let st ← ooxmlPart analyze a ⟨extMap, ans⟩
  let st := odfPart a st
  if st.ans.length = 0 then .ok ([zipItem (a.map childInfo)], st.extMap) else .ok (st.ans, st.extMap)

end Fileid.Zip
