import Verif.Base
import Verif.Spec.Calendar

/-!
# Model of `fileid/common.hpp`
-/

namespace Fileid.Common

open Spec (isLeap yearDays monthDays DateTime)

/-- common.hpp:55-79 `displayDuration`. `filetime / 10` is below 2^61, so the `int64` chrono counts
never overflow and are modelled as naturals. -/
def displayDuration (filetime : Nat) : Bytes :=
  let micro := filetime / 10
  let ms := micro / 1000
  let micro := micro - ms * 1000
  let secs := ms / 1000
  let ms := ms - secs * 1000
  let mins := secs / 60
  let secs := secs - mins * 60
  let hour := mins / 60
  let mins := mins - hour * 60
  setw0 2 (dec hour) ++ b!":" ++ setw0 2 (dec mins) ++ b!":" ++ setw0 2 (dec secs) ++
    (if ms > 0 ∨ micro > 0 then b!"." ++ setw0 3 (dec ms) ++ setw0 3 (dec micro) else [])

/-- common.hpp:82-84 `convertFILETIME`: the subtraction is done in `unsigned long long`, the result
converted to the signed 64-bit `time_t`. -/
def convertFILETIME (time : Nat) : Int := toSigned 64 (sub64 (time / 10000000) 11644473600)

/-- Library behaviour assumed of `gmtime_r`, step 1: peel off whole years, starting with year `y`. The
first argument is a step budget. -/
def gmYear : Nat → Nat → Nat → Nat × Nat
  | 0, days, y => (y, days)
  | f + 1, days, y => if days < yearDays y then (y, days) else gmYear f (days - yearDays y) (y + 1)

/-- Library behaviour assumed of `gmtime_r`, step 2: peel off whole months, starting with month `m`. -/
def gmMonth (y : Nat) : Nat → Nat → Nat → Nat × Nat
  | 0, days, m => (m, days)
  | f + 1, days, m =>
    if days < monthDays y m then (m, days) else gmMonth y f (days - monthDays y m) (m + 1)

/-- Library behaviour assumed of `gmtime_r` for a non-negative `time_t` (seconds since
1970-01-01 00:00:00 UTC, no leap seconds). -/
def gmtime (t : Nat) : DateTime :=
  let days := t / 86400
  let rem := t % 86400
  let (year, yday) := gmYear days days 1970
  let (mon, mday) := gmMonth year 11 yday 1
  ⟨year, mon, mday + 1, rem / 3600, rem % 3600 / 60, rem % 60⟩

/-- Library behaviour assumed of `strftime(.., "%F %T", ..)`: `%F` = `%Y-%m-%d`, `%T` = `%H:%M:%S`. -/
def strftimeFT (tm : DateTime) : Bytes :=
  dec tm.year ++ b!"-" ++ setw0 2 (dec tm.mon) ++ b!"-" ++ setw0 2 (dec tm.day) ++ b!" " ++
    setw0 2 (dec tm.hour) ++ b!":" ++ setw0 2 (dec tm.min) ++ b!":" ++ setw0 2 (dec tm.sec)

/-- common.hpp:87-109 `FileTimeToString`, non-Windows branch. `errnoOverflow` is whether the
process-global `errno` equals `EOVERFLOW` when line 98 looks at it; the code never resets `errno`, and
`gmtime_r` does not set it for the years reachable here (at most 60056). -/
def FileTimeToString (errnoOverflow : Bool) (time : Nat) : Bytes :=
  let t := convertFILETIME time
  if t > 0 then
    if !errnoOverflow then strftimeFT (gmtime t.toNat) else b!"invalid time"
  else b!"1601-01-01 00:00:00"

/-- `tolower` in the "C" locale (identity outside A-Z; glibc and MSVC tables also cover the negative
`char` values, for which ISO C leaves the call undefined: simplification). -/
def tolower (c : UInt8) : UInt8 := if 65 ≤ c ∧ c ≤ 90 then c + 32 else c

/-- common.hpp:113-120 `iequals` on `std::string`: `std::equal` with both end iterators. -/
def iequals : Bytes → Bytes → Bool
  | [], [] => true
  | a :: as, b :: bs => tolower a == tolower b && iequals as bs
  | _, _ => false

/-- common.hpp:123-130 `iequals` on `std::wstring` (code units as naturals): the comparison lambda takes
its arguments as `char`, so each code unit is first reduced modulo 256. -/
def iequalsW : List Nat → List Nat → Bool
  | [], [] => true
  | a :: as, b :: bs => tolower (UInt8.ofNat a) == tolower (UInt8.ofNat b) && iequalsW as bs
  | _, _ => false

/-- `std::string::npos` (64-bit `size_t`). -/
def npos : Nat := 18446744073709551615

/-- `std::string::find_first_not_of(chars)`. -/
def findFirstNotOf (chars : Bytes) : Bytes → Nat → Nat
  | [], _ => npos
  | c :: cs, i => if chars.contains c then findFirstNotOf chars cs (i + 1) else i

/-- `std::string::find_last_not_of(chars)`: the scan keeps the last index seen. -/
def findLastNotOf (chars : Bytes) : Bytes → Nat → Nat → Nat
  | [], _, last => last
  | c :: cs, i, last => findLastNotOf chars cs (i + 1) (if chars.contains c then last else i)

/-- `std::string::erase(pos, n)`. -/
def erase (s : Bytes) (pos n : Nat) : Res Bytes :=
  if pos ≤ s.length then .ok (s.take pos ++ s.drop (pos + min n (s.length - pos))) else .throw .outOfRange

/-- common.hpp:134-138 `ltrim`. -/
def ltrim (chars s : Bytes) : Res Bytes := erase s 0 (findFirstNotOf chars s 0)

/-- common.hpp:142-146 `rtrim`; `npos + 1` wraps to 0. -/
def rtrim (chars s : Bytes) : Res Bytes := erase s (u64 (findLastNotOf chars s 0 npos + 1)) npos

/-- common.hpp:150-153 `trim`. -/
def trim (chars s : Bytes) : Res Bytes := rtrim chars s >>= ltrim chars

/-- common.hpp:134 default character set `"\t\n\v\f\r "`. -/
def whitespace : Bytes := [9, 10, 11, 12, 13, 32]

/-- common.hpp:156-165 `erasenulls`: append loop. -/
def erasenulls (str : Bytes) : Bytes :=
  str.foldl (fun output c => if c ≠ 0 then output ++ [c] else output) []

/-- common.hpp:185-192 `int_to_hex<T>` for an unsigned integer type of `w` bytes (`w ≥ 2`). -/
def intToHex (w i : Nat) : Bytes := b!"0x" ++ setw0 (w * 2) (hexLower i)

/-- common.hpp:195-217 `bin2hex11` (both overloads; the pointer overload walks `size` bytes). -/
def bin2hex (buffer : Bytes) : Bytes :=
  buffer.foldl (fun oss ch => oss ++ setw0 2 (hexLower ch.toNat)) []

/-- common.hpp:222-227 `readBuffer`: copies `size` bytes from `buffer + off`; no bounds check. -/
def readBuffer (buffer : Bytes) (off size : Nat) : Res Bytes := rdRange buffer off size

/-- What opening a path yields: `none` if the stream cannot be opened, else the file's bytes.
(Simplification: regular files only; the content does not change while the program runs.) -/
abbrev File := Option Bytes

/-- common.hpp:230-237 `getFileSize`: `tellg` of a stream that failed to open is -1. -/
def getFileSize (f : File) : Nat :=
  match f with
  | none => 4294967295
  | some c => u32 c.length

/-- common.hpp:240-256 `readFile`: the size is narrowed to `unsigned int`. -/
def readFile (f : File) (max : Nat) : Bytes :=
  match f with
  | none => []
  | some c =>
    let fileSize := u32 c.length
    let size := if fileSize < max then fileSize else max
    c.take size

/-- common.hpp:259-261 `ExtractBits`. `1 << bitCount` is an `int` shift: undefined from 31 bits on
(`1 << 31` is not representable, and `- 1` then overflows); the right shift amount `bitOffset - 1` is an
`int`, negative for `bitOffset = 0` and at least the width from 33 on. -/
def ExtractBits (num : UInt8) (bitCount bitOffset : Nat) : Res UInt8 :=
  if bitCount ≥ 31 then .ub .badShift
  else if bitOffset = 0 ∨ bitOffset > 32 then .ub .badShift
  else .ok (UInt8.ofNat ((2 ^ bitCount - 1) &&& (num.toNat >>> (bitOffset - 1))))

/-- common.hpp:264-271 `VerifyGuids`: loop over 16 bytes with early exit. `n` counts the remaining
iterations. -/
def VerifyGuidsLoop (actual expected : Bytes) : Nat → Nat → Bool → Res Bool
  | 0, _, ans => .ok ans
  | n + 1, i, ans =>
    if ans then do
      let a ← rd actual i
      let e ← rd expected i
      VerifyGuidsLoop actual expected n (i + 1) (ans && (a == e))
    else .ok ans
def VerifyGuids (actual expected : Bytes) : Res Bool := VerifyGuidsLoop actual expected 16 0 true

/-- common.hpp:274-286 `ReadUShort`. `offset + 1` is computed in `unsigned int`, as are the indexes. -/
def ReadUShort (buffer : Bytes) (max offset : Nat) (bigEndian : Bool := false) : Res Nat :=
  if u32 (offset + 1) > max then .throw .rangeError
  else if bigEndian then do
    let a ← rd buffer offset
    let b ← rd buffer (u32 (offset + 1))
    .ok (u16 ((a.toNat <<< 8) ||| b.toNat))
  else do
    let b ← rd buffer (u32 (offset + 1))
    let a ← rd buffer offset
    .ok (u16 ((b.toNat <<< 8) ||| a.toNat))

/-- common.hpp:289-301 `ReadSShort`: same bytes, converted to `signed short`. -/
def ReadSShort (buffer : Bytes) (max offset : Nat) (bigEndian : Bool := false) : Res Int :=
  if u32 (offset + 1) > max then .throw .rangeError
  else if bigEndian then do
    let a ← rd buffer offset
    let b ← rd buffer (u32 (offset + 1))
    .ok (toSigned 16 ((a.toNat <<< 8) ||| b.toNat))
  else do
    let b ← rd buffer (u32 (offset + 1))
    let a ← rd buffer offset
    .ok (toSigned 16 ((b.toNat <<< 8) ||| a.toNat))

/-- common.hpp:304-322 `ReadUInt`. -/
def ReadUInt (buffer : Bytes) (max offset : Nat) (bigEndian : Bool := false) : Res Nat :=
  if u32 (offset + 3) > max then .throw .rangeError
  else do
    let b0 ← rd buffer offset
    let b1 ← rd buffer (u32 (offset + 1))
    let b2 ← rd buffer (u32 (offset + 2))
    let b3 ← rd buffer (u32 (offset + 3))
    if bigEndian then
      .ok (u32 ((b3.toNat <<< 24) ||| (b2.toNat <<< 16) ||| (b1.toNat <<< 8) ||| b0.toNat))
    else
      .ok (u32 ((b0.toNat <<< 24) ||| (b1.toNat <<< 16) ||| (b2.toNat <<< 8) ||| b3.toNat))

/-- common.hpp:325-343 `ReadSInt`. -/
def ReadSInt (buffer : Bytes) (max offset : Nat) (bigEndian : Bool := false) : Res Int :=
  if u32 (offset + 3) > max then .throw .rangeError
  else do
    let b0 ← rd buffer offset
    let b1 ← rd buffer (u32 (offset + 1))
    let b2 ← rd buffer (u32 (offset + 2))
    let b3 ← rd buffer (u32 (offset + 3))
    if bigEndian then
      .ok (toSigned 32 ((b3.toNat <<< 24) ||| (b2.toNat <<< 16) ||| (b1.toNat <<< 8) ||| b0.toNat))
    else
      .ok (toSigned 32 ((b0.toNat <<< 24) ||| (b1.toNat <<< 16) ||| (b2.toNat <<< 8) ||| b3.toNat))

/-- common.hpp:346-355 `ReadULong`: `sizeof` has type `size_t`, so the guard is computed in 64 bits. -/
def ReadULong (abi : Abi) (buffer : Bytes) (max offset : Nat) : Res Nat :=
  if u64 (offset + abi.ulongBytes) > max then .throw .rangeError
  else do
    let bs ← rdRange buffer offset abi.ulongBytes
    .ok (leVal bs)

/-- common.hpp:358-367 `ReadULongLong`. -/
def ReadULongLong (buffer : Bytes) (max offset : Nat) : Res Nat :=
  if u64 (offset + 8) > max then .throw .rangeError
  else do
    let bs ← rdRange buffer offset 8
    .ok (leVal bs)

/-- common.hpp:370-376 `ReadString`: the guard adds two `unsigned int`s. -/
def ReadString (buffer : Bytes) (max offset strLength : Nat) : Res Bytes :=
  if u32 (offset + strLength) > max then .throw .rangeError
  else rdRange buffer offset strLength

/-- Splits a byte range into little-endian units of `w` bytes (an incomplete last unit is dropped).
The first argument is the number of units. -/
def units (w : Nat) : Nat → Bytes → List Nat
  | 0, _ => []
  | n + 1, bs => leVal (bs.take w) :: units w n (bs.drop w)

/-- common.hpp:379-386 `ReadWString`: wide characters from `&buffer[offset]` up to
`&buffer[offset+strLength]` (the second index is an `unsigned int`). The pointer distance is divided by
`sizeof(wchar_t)`, rounding down; a reversed range (after wrap-around) is undefined. -/
def ReadWString (abi : Abi) (buffer : Bytes) (max offset strLength : Nat) : Res (List Nat) :=
  if u32 (offset + strLength) > max then .throw .rangeError
  else if u32 (offset + strLength) < offset then .ub .oobRead
  else do
    let n := strLength / abi.wcharBytes
    let bs ← rdRange buffer offset (n * abi.wcharBytes)
    .ok (units abi.wcharBytes n bs)

/-- common.hpp:389-398 `ReadFloat`: the IEEE bit pattern is returned (simplification: no float type). -/
def ReadFloatBits (buffer : Bytes) (max offset : Nat) : Res Nat :=
  if u32 (offset + 4) > max then .throw .rangeError
  else do
    let bs ← rdRange buffer offset 4
    .ok (leVal bs)

/-- common.hpp:401-410 `ReadDouble`: the IEEE bit pattern is returned (simplification: no float type). -/
def ReadDoubleBits (buffer : Bytes) (max offset : Nat) : Res Nat :=
  if u32 (offset + 8) > max then .throw .rangeError
  else do
    let bs ← rdRange buffer offset 8
    .ok (leVal bs)

/-- common.hpp:430-431, the comparison loop of `checkMagic`; `n` iterations are left. -/
def checkMagicLoop (maxxer minner : Bytes) (offset : Nat) : Nat → Nat → Bool → Res Bool
  | 0, _, ans => .ok ans
  | n + 1, i, ans =>
    if ans then do
      let a ← rd maxxer i
      let e ← rd minner (i - offset)
      checkMagicLoop maxxer minner offset n (i + 1) (ans && (a == e))
    else .ok ans

/-- common.hpp:413-434 `checkMagic`. The lengths are those passed by the caller, the lists are the real
arrays. -/
def checkMagic (actual : Bytes) (actualLength : Nat) (expected : Bytes) (expectedLength offset : Nat) :
    Res Bool :=
  let swap := expectedLength > actualLength
  let min := if swap then actualLength else expectedLength
  let max := if swap then expectedLength else actualLength
  let minner := if swap then actual else expected
  let maxxer := if swap then expected else actual
  if u64 (offset + min) > max ∨ actualLength < expectedLength then .ok false
  else checkMagicLoop maxxer minner offset min offset true

/-- `iscntrl` in the "C" locale. -/
def iscntrl (c : UInt8) : Bool := c < 32 || c == 127

/-- common.hpp:440-471, one step of `JsonEscape`'s loop. `(static_cast<unsigned>(*c) << 24) >> 24` is the
byte's unsigned value. -/
def jsonEscapeChar (c : UInt8) : Bytes :=
  if c = 34 then b!"\\\""
  else if c = 92 then b!"\\\\"
  else if c = 8 then b!"\\b"
  else if c = 12 then b!"\\f"
  else if c = 10 then b!"\\n"
  else if c = 13 then b!"\\r"
  else if c = 9 then b!"\\t"
  else if iscntrl c || c > 127 then b!"\\u" ++ setw0 4 (hexUpper c.toNat)
  else [c]

/-- common.hpp:437-476 `JsonEscape`: the loop runs over `c_str()` and stops at the first NUL byte. -/
def JsonEscape : Bytes → Bytes
  | [] => []
  | c :: cs => if c = 0 then [] else jsonEscapeChar c ++ JsonEscape cs

/-- common.hpp:481-511, one step of `XmlEscape`'s loop. -/
def xmlEscapeChar (c : UInt8) : Bytes :=
  if c = 34 then b!"&#34;"
  else if c = 38 then b!"&#38;"
  else if c = 39 then b!"&#39;"
  else if c = 62 then b!"&#60;"
  else if c = 60 then b!"&#62;"
  else if iscntrl c || c > 127 then b!"&#" ++ setw0 2 (dec c.toNat) ++ b!";"
  else [c]

/-- common.hpp:479-514 `XmlEscape`. -/
def XmlEscape (s : Bytes) : Bytes := s.foldl (fun result c => result ++ xmlEscapeChar c) []

/-- common.hpp:576-580 data members of `ExtensionInfo`. -/
structure ExtInfo where
  Extension : Bytes := []
  Name : Bytes := []
  SubType : Bytes := []
  Version : Nat := 0
  VersionName : Bytes := []
  deriving DecidableEq, Repr

namespace ExtInfo

/-- common.hpp:541-557 `buildBaseJson`. -/
def buildBaseJson (e : ExtInfo) : Bytes :=
  b!"\"extension\" : \"" ++ e.Extension ++ b!"\"" ++
  (if e.Name.length > 0 then b!", \"name\":\"" ++ e.Name ++ b!"\"" else []) ++
  (if e.SubType.length > 0 then b!", \"subtype\":\"" ++ JsonEscape e.SubType ++ b!"\"" else []) ++
  (if e.Version > 0 then b!", \"version\" : \"" ++ dec e.Version ++ b!"\"" else []) ++
  (if e.VersionName.length > 0 then b!", \"versionname\" : \"" ++ e.VersionName ++ b!"\"" else [])

/-- common.hpp:558-574 `buildBaseXml`. -/
def buildBaseXml (e : ExtInfo) : Bytes :=
  b!"<extension>" ++ e.Extension ++ b!"</extension>" ++
  (if e.Name.length > 0 then b!"<name>" ++ e.Name ++ b!"</name>" else []) ++
  (if e.SubType.length > 0 then b!"<subtype>" ++ XmlEscape e.SubType ++ b!"</subtype>" else []) ++
  (if e.Version > 0 then b!"<version>" ++ dec e.Version ++ b!"</version>" else []) ++
  (if e.VersionName.length > 0 then b!"<versionname>" ++ e.VersionName ++ b!"</versionname>" else [])

/-- common.hpp:585-587 `operator==`. -/
def eqExt (a b : ExtInfo) : Bool := a.Extension == b.Extension

/-- common.hpp:591-597 `ToJson`. -/
def toJson (e : ExtInfo) : Bytes := b!"{" ++ e.buildBaseJson ++ b!"}"
/-- common.hpp:598-604 `ToXml`. -/
def toXml (e : ExtInfo) : Bytes := b!"<item>" ++ e.buildBaseXml ++ b!"</item>"
/-- common.hpp:605-613 `ToText`. -/
def toText (e : ExtInfo) : Bytes :=
  e.Extension ++ b!"\t" ++ e.Name ++ b!"\t" ++ e.SubType ++ b!"\t" ++ dec e.Version ++ b!"\t" ++
    e.VersionName
/-- common.hpp:614-622 `ToCsv`. -/
def toCsv (e : ExtInfo) : Bytes :=
  e.Extension ++ b!"," ++ e.Name ++ b!"," ++ e.SubType ++ b!"," ++ dec e.Version ++ b!"," ++
    e.VersionName

end ExtInfo

/-- An `ExtensionInfo*` as the rest of the program sees it: the base members and the results of the
four virtual export functions (dynamic dispatch is resolved when the object is made). -/
structure Item where
  info : ExtInfo
  json : Bytes
  xml : Bytes
  text : Bytes
  csv : Bytes
  deriving DecidableEq, Repr

/-- An object whose export functions are the base class's. -/
def Item.generic (e : ExtInfo) : Item := ⟨e, e.toJson, e.toXml, e.toText, e.toCsv⟩

/-- common.hpp:625-630 `OutputFormat`. -/
inductive OutputFormat
  | text | json | xml | csv
  deriving DecidableEq, Repr

/-- common.hpp:661-675 `ParseOutputFormat`. -/
def ParseOutputFormat (input : Bytes) : OutputFormat :=
  if input = b!"xml" then .xml
  else if input = b!"csv" then .csv
  else if input = b!"txt" then .text
  else if input = b!"json" then .json
  else .text

/-- common.hpp:677-689 `vector_join<std::string>`. `first` tells whether the iterator is at `begin()`. -/
def vectorJoinLoop (token : Bytes) (useQuotes : Bool) : Bool → List Bytes → Bytes
  | _, [] => []
  | first, x :: xs =>
    (if first then [] else token) ++
    (if useQuotes then b!"\"" ++ x ++ b!"\"" else x) ++ vectorJoinLoop token useQuotes false xs
def vectorJoin (v : List Bytes) (token : Bytes) (useQuotes : Bool := false) : Bytes :=
  vectorJoinLoop token useQuotes true v

/-- common.hpp:714-719, the JSON array loop of `Output`. -/
def jsonItems : Bool → List Item → Bytes
  | _, [] => []
  | first, i :: is => (if first then [] else b!",") ++ i.json ++ jsonItems false is

/-- common.hpp:692-731 `Output`: the bytes written to standard output. -/
def Output (format : OutputFormat) (file headerName : Bytes) (summary : List Item) : Bytes :=
  match format with
  | .text => file ++ b!"\n" ++ (summary.map fun i => b!"\t" ++ i.text ++ b!"\n").flatten
  | .xml =>
    b!"<file>" ++ b!"<name>" ++ XmlEscape file ++ b!"</name>" ++ b!"<" ++ headerName ++ b!">" ++
    (summary.map fun i => i.xml).flatten ++ b!"</" ++ headerName ++ b!">" ++ b!"</file>"
  | .json =>
    b!"{\"name\":\"" ++ JsonEscape file ++ b!"\"," ++ b!"\"" ++ headerName ++ b!"\":[" ++
    jsonItems true summary ++ b!"]}"
  | .csv => (summary.map fun i => i.csv ++ b!"\n").flatten

end Fileid.Common
