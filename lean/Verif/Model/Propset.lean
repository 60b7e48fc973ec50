import Verif.Model.Common
import Verif.Model.Tables
import Verif.Model.Excel

/-!
# Model of `fileid/oless/propset`: property sets

Paths are relative to `fileid/oless/propset`. The content of a stream is a byte string; structure pointers are
reads of the members at their offsets (misalignment is ignored, as in `Model/OfficeVersions.lean`).
-/

namespace Fileid.Propset

open Common Tables

/-- PropertyType.hpp:47-119, the cases of `PropertyTypeToString`. -/
def propertyTypes : List (Nat × Bytes) := [
  (0x0000, b!"VT_EMPTY"),
  (0x0001, b!"VT_NULL"),
  (0x0002, b!"VT_I2"),
  (0x0003, b!"VT_I4"),
  (0x0004, b!"VT_R4"),
  (0x0005, b!"VT_R8"),
  (0x0006, b!"VT_CY"),
  (0x0007, b!"VT_DATE"),
  (0x0008, b!"VT_BSTR"),
  (0x000A, b!"VT_ERROR"),
  (0x000B, b!"VT_BOOL"),
  (0x000E, b!"VT_DECIMAL"),
  (0x0010, b!"VT_I1"),
  (0x0011, b!"VT_UI1"),
  (0x0012, b!"VT_UI2"),
  (0x0013, b!"VT_UI4"),
  (0x0014, b!"VT_I8"),
  (0x0015, b!"VT_UI8"),
  (0x0016, b!"VT_INT"),
  (0x0017, b!"VT_UINT"),
  (0x001E, b!"VT_LPSTR"),
  (0x001F, b!"VT_LPWSTR"),
  (0x0040, b!"VT_FILETIME"),
  (0x0041, b!"VT_BLOB"),
  (0x0042, b!"VT_STREAM"),
  (0x0043, b!"VT_STORAGE"),
  (0x0044, b!"VT_STREAMED_OBJECT"),
  (0x0045, b!"VT_STORED_OBJECT"),
  (0x0046, b!"VT_BLOB_OBJECT"),
  (0x0047, b!"VT_CF"),
  (0x0048, b!"VT_CLSID"),
  (0x0049, b!"VT_VERSIONED_STREAM"),
  (0x1002, b!"VT_VECTOR|VT_I2"),
  (0x1003, b!"VT_VECTOR|VT_I4"),
  (0x1004, b!"VT_VECTOR|VT_R4"),
  (0x1005, b!"VT_VECTOR|VT_R8"),
  (0x1006, b!"VT_VECTOR|VT_CY"),
  (0x1007, b!"VT_VECTOR|VT_DATE"),
  (0x1008, b!"VT_VECTOR|VT_BSTR"),
  (0x100A, b!"VT_VECTOR|VT_ERROR"),
  (0x100B, b!"VT_VECTOR|VT_BOOL"),
  (0x100C, b!"VT_VECTOR|VT_VARIANT"),
  (0x1010, b!"VT_VECTOR|VT_I1"),
  (0x1011, b!"VT_VECTOR|VT_UI1"),
  (0x1012, b!"VT_VECTOR|VT_UI2"),
  (0x1013, b!"VT_VECTOR|VT_UI4"),
  (0x1014, b!"VT_VECTOR|VT_I8"),
  (0x1015, b!"VT_VECTOR|VT_UI8"),
  (0x101E, b!"VT_VECTOR|VT_LPSTR"),
  (0x101F, b!"VT_VECTOR|VT_LPWSTR"),
  (0x1040, b!"VT_VECTOR|VT_FILETIME"),
  (0x1047, b!"VT_VECTOR|VT_CF"),
  (0x1048, b!"VT_VECTOR|VT_CLSID"),
  (0x2002, b!"VT_ARRAY|VT_I2"),
  (0x2003, b!"VT_ARRAY|VT_I4"),
  (0x2004, b!"VT_ARRAY|VT_R4"),
  (0x2005, b!"VT_ARRAY|VT_R8"),
  (0x2006, b!"VT_ARRAY|VT_CY"),
  (0x2007, b!"VT_ARRAY|VT_DATE"),
  (0x2008, b!"VT_ARRAY|VT_BSTR"),
  (0x200A, b!"VT_ARRAY|VT_ERROR"),
  (0x200B, b!"VT_ARRAY|VT_BOOL"),
  (0x200C, b!"VT_ARRAY|VT_VARIANT"),
  (0x200E, b!"VT_ARRAY|VT_DECIMAL"),
  (0x2010, b!"VT_ARRAY|VT_I1"),
  (0x2011, b!"VT_ARRAY|VT_UI1"),
  (0x2012, b!"VT_ARRAY|VT_UI2"),
  (0x2013, b!"VT_ARRAY|VT_UI4"),
  (0x2016, b!"VT_ARRAY|VT_INT"),
  (0x2017, b!"VT_ARRAY|VT_UINT")]

/-- PropertyType.hpp:46-121 `PropertyTypeToString`. -/
def PropertyTypeToString (pt : Nat) : Bytes :=
  (lookup propertyTypes pt).getD (b!"Unknown Property Type (" ++ dec pt ++ b!")")

/-- FormatId.hpp:6-11 `FormatId`. -/
inductive FormatId
  | unknown | summary | docSummary | userDefined
  deriving DecidableEq, Repr

/-- FormatId.hpp:12 -/
def guid_SummaryInformation : Bytes :=
  [0xE0,0x85,0x9F,0xF2,0xF9,0x4F,0x68,0x10,0xAB,0x91,0x08,0x00,0x2B,0x27,0xB3,0xD9]
/-- FormatId.hpp:13 -/
def guid_DocumentSummaryInformation : Bytes :=
  [0x02,0xD5,0xCD,0xD5,0x9C,0x2E,0x1B,0x10,0x93,0x97,0x08,0x00,0x2B,0x2C,0xF9,0xAE]
/-- FormatId.hpp:14 -/
def guid_UserDefinedProperties : Bytes :=
  [0x05,0xD5,0xCD,0xD5,0x9C,0x2E,0x1B,0x10,0x93,0x97,0x08,0x00,0x2B,0x2C,0xF9,0xAE]

/-- FormatId.hpp:37-49 `FormatIdFromGuid`. -/
def FormatIdFromGuid (guid : Bytes) : Res FormatId := do
  let a ← VerifyGuids guid guid_SummaryInformation
  if a then .ok .summary
  else do
    let b ← VerifyGuids guid guid_DocumentSummaryInformation
    if b then .ok .docSummary
    else do
      let c ← VerifyGuids guid guid_UserDefinedProperties
      if c then .ok .userDefined else .ok .unknown

/-- PropertyIdentifier.hpp:57-76, the cases for document summary information. -/
def docSummaryNames : List (Nat × Bytes) := [
  (0x0, b!"Dictionary"),
  (0x1, b!"CodePage"),
  (0x80000000, b!"Locale"),
  (0x80000003, b!"Behavior"),
  (0x2, b!"Category"),
  (0x3, b!"PresentationTarget"),
  (0x4, b!"Bytes"),
  (0x5, b!"Lines"),
  (0x6, b!"Paragraphs"),
  (0x7, b!"Slides"),
  (0x8, b!"Notes"),
  (0x9, b!"HiddenSlides"),
  (0xA, b!"MMClips"),
  (0xB, b!"ScaleCrop"),
  (0xC, b!"HeadingPairs"),
  (0xD, b!"TitlesofParts"),
  (0xE, b!"Manager"),
  (0xF, b!"Company"),
  (0x10, b!"LinksUpToDate")]

/-- PropertyIdentifier.hpp:82-102, the cases for summary information. -/
def summaryNames : List (Nat × Bytes) := [
  (0x0, b!"Dictionary"),
  (0x1, b!"CodePage"),
  (0x2, b!"Title"),
  (0x3, b!"Subject"),
  (0x4, b!"Author"),
  (0x5, b!"Keywords"),
  (0x6, b!"Comments"),
  (0x7, b!"Template"),
  (0x8, b!"Last Author"),
  (0x9, b!"Revision"),
  (0xA, b!"Edit Time"),
  (0xB, b!"Last Printed"),
  (0xC, b!"Creation Time"),
  (0xD, b!"Last Save Time"),
  (0xE, b!"Page Count"),
  (0xF, b!"Word Count"),
  (0x10, b!"Character Count"),
  (0x11, b!"Thumbnail"),
  (0x12, b!"Application"),
  (0x13, b!"DocSecurity")]

/-- PropertyIdentifier.hpp:52-114 `PropertyIdentifierToString`. -/
def PropertyIdentifierToString (fid : FormatId) (pi : Nat) : Bytes :=
  let ans := b!"Unknown Property Identifier (" ++ dec pi ++ b!")"
  match fid with
  | .docSummary => (lookup docSummaryNames pi).getD ans
  | .summary => (lookup summaryNames pi).getD ans
  | .userDefined => ans
  | .unknown => ans

/-- A floating point value by its bit pattern: read as `float` (and widened) or as `double`. -/
inductive Real
  | single (bits : Nat)
  | double (bits : Nat)
  deriving DecidableEq, Repr

/-- Property.hpp:21-31, the value: of the flags `HasString`, `HasInt`, `HasFloat`, `HasBool` at most one is ever
set, together with its member. -/
inductive Value
  | none
  | str (s : Bytes)
  | int (n : Nat)
  | float (r : Real)
  | bool (b : Bool)
  deriving DecidableEq, Repr

/-- Property.hpp:15-46 `Property`. -/
structure Property where
  PID : Nat := 0
  FMTID : FormatId := .unknown
  type : Nat := 0
  value : Value := .none
  deriving DecidableEq, Repr

/-- What the process and its library contribute to printing: `os << double` and the state of `errno`
(`FileTimeToString`). (Simplification: arbitrary.) -/
structure Env where
  real : Real → Bytes
  errnoOverflow : Bool

/-- Property.hpp:54-79, the value in JSON. -/
def valueJson (env : Env) (p : Property) : Bytes :=
  match p.value with
  | .str s => b!"\"" ++ JsonEscape s ++ b!"\""
  | .float r => env.real r
  | .int n =>
    if p.type = 0x40 then
      if p.PID = 0x0A then b!"\"" ++ displayDuration n ++ b!"\""
      else b!"\"" ++ FileTimeToString env.errnoOverflow n ++ b!"\""
    else dec n
  | .bool b => if b then b!"true" else b!"false"
  | .none => b!"\"unknown\""

/-- Property.hpp:48-81 `ToJson`. -/
def Property.toJson (env : Env) (p : Property) : Bytes :=
  b!"{" ++ b!"\"Property\":\"" ++ PropertyIdentifierToString p.FMTID p.PID ++ b!"\"" ++
  b!",\"Type\":\"" ++ PropertyTypeToString p.type ++ b!"\"" ++
  b!",\"Value\":" ++ valueJson env p ++ b!"}"

/-- Property.hpp:88-104, the value in XML. -/
def valueXml (env : Env) (p : Property) : Bytes :=
  match p.value with
  | .str s => XmlEscape s
  | .float r => env.real r
  | .int n => dec n
  | .bool b => if b then b!"true" else b!"false"
  | .none => b!"unknown"

/-- Property.hpp:82-107 `ToXML`. -/
def Property.toXml (env : Env) (p : Property) : Bytes :=
  b!"<PropertyItem>" ++ b!"<Property>" ++ PropertyIdentifierToString p.FMTID p.PID ++ b!"</Property>" ++
  b!"<Type>" ++ PropertyTypeToString p.type ++ b!"</Type>" ++ b!"<Value>" ++ valueXml env p ++
  b!"</Value></PropertyItem>"

/-- The conversion of a signed number to `unsigned long long`. -/
def toU64 (i : Int) : Nat := (i % 18446744073709551616).toNat

/-- Property.hpp:120-176, the value for a type; `index` is behind the header of four bytes. -/
def readValue (abi : Abi) (buffer : Bytes) (max index type : Nat) : Res Value :=
  if type = 0x0B then do
    let tmp ← ReadUShort buffer max index
    .ok (.bool (decide (tmp = 0xFFFF)))
  else if type = 0x02 then do
    let v ← ReadSShort buffer max index
    .ok (.int (toU64 v))
  else if type = 0x03 then do
    let v ← ReadSInt buffer max index
    .ok (.int (toU64 v))
  else if type = 0x04 then do
    let v ← ReadFloatBits buffer max index
    .ok (.float (.single v))
  else if type = 0x05 then do
    let v ← ReadDoubleBits buffer max index
    .ok (.float (.double v))
  else if type = 0x40 then do
    let low ← ReadUInt buffer max index true
    let high ← ReadUInt buffer max (u32 (index + 4)) true
    .ok (.int ((high <<< 32) ||| low))
  else if type = 0x08 ∨ type = 0x1E then do
    let size ← ReadUInt buffer max index true
    let tmpStr ← ReadString buffer max (u32 (index + 4)) size
    .ok (.str (erasenulls tmpStr))
  else if type = 0x1F ∨ type = 0x42 ∨ type = 0x43 ∨ type = 0x44 ∨ type = 0x45 then do
    let size ← ReadUInt buffer max index true
    let tmpwStr ← ReadWString abi buffer max (u32 (index + 4)) (u32 (sub32 size 1 * 2))
    let s ← Excel.convert abi tmpwStr
    .ok (.str (erasenulls s))
  else .ok .none

/-- Property.hpp:110-179 `ReadProperty`: the header is read without a bounds check. It never returns null. -/
def ReadProperty (abi : Abi) (buffer : Bytes) (max offset pid : Nat) : Res Property := do
  let tpv ← rdRange buffer offset 2
  let type := leVal tpv
  let v ← readValue abi buffer max (u32 (offset + 4)) type
  .ok { PID := pid, type, value := v }

/-- DocumentSummary.hpp:67-78, the properties of a set; the first argument counts those left. The table of
identifiers and offsets is read without a bounds check. -/
def propertyLoop (abi : Abi) (buffer : Bytes) (fmtid : Bytes) (base : Nat) : Nat → Nat → List Property →
    Res (List Property)
  | 0, _, children => .ok children
  | k + 1, index, children => do
    let pid ← rdRange buffer index 4
    let off ← rdRange buffer (index + 4) 4
    let p ← ReadProperty abi buffer buffer.length (u32 (base + leVal off)) (leVal pid)
    let f ← FormatIdFromGuid fmtid
    propertyLoop abi buffer fmtid base k (u32 (index + 8)) (children ++ [{ p with FMTID := f }])

/-- DocumentSummary.hpp:52-79, the property sets; the first argument counts those left, `i` is
`propertySetIndex`. The sums with `sizeof` are computed in `size_t`; the stream is shorter than 2^64 bytes. -/
def setLoop (abi : Abi) (buffer : Bytes) : Nat → Nat → List Property → Res (List Property)
  | 0, _, children => .ok children
  | k + 1, i, children =>
    let index := u32 (28 + i * 20)
    if index + 20 > buffer.length then .throw .rangeError
    else do
      let fmtid ← rdRange buffer index 16
      let off ← rdRange buffer (index + 16) 4
      let base := leVal off
      if base + 8 > buffer.length then .throw .rangeError
      else do
        let num ← rdRange buffer (base + 4) 4
        let children ← propertyLoop abi buffer fmtid base (leVal num) (u32 (base + 8)) children
        setLoop abi buffer k (i + 1) children

/-- DocumentSummary.hpp:38-81 `ParseStream` for a stream whose content was read completely. -/
def parseContent (abi : Abi) (buffer : Bytes) : Res (List Property) :=
  if buffer.length > 0 then
    if 28 > buffer.length then .throw .rangeError
    else do
      let num ← rdRange buffer 24 4
      setLoop abi buffer (leVal num) 0 []
  else .ok []

end Fileid.Propset
