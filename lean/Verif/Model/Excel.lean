import Verif.Model.Common
import Verif.Model.Tables
import Verif.Model.ExcelTables

/-!
# Model of `fileid/document/excel`: value names, structures and formula tokens

Paths are relative to `fileid/document/excel`. A record's data is a byte string `buffer`; `max` is the bound
handed to the bounds-checked readers. An unchecked read `buffer[i]` is `rd`, which is undefined outside the
data. Floating point values are kept as bit patterns; `Fmt` holds the two library functions that print them.
-/

namespace Fileid.Excel

open Common Tables ExcelTables

/-- The library's conversion of floating point values to text, by bit pattern: `std::to_string(double)` and
`os << float`. The model does not fix them (simplification: arbitrary functions). -/
structure Fmt where
  f64 : Nat → Bytes
  f32 : Nat → Bytes

/-- A fixed choice used in examples. -/
def Fmt.zero : Fmt := ⟨fun _ => b!"0.000000", fun _ => b!"0"⟩

/-! ## MSExcel.common.hpp -/

/-- MSExcel.common.hpp:18-33 `GetVersionFromVer` and `GetVersion_Excel`. -/
def GetVersion_Excel (version : Nat) : Bytes :=
  if version = 512 then b!"BIFF2"
  else if version = 768 then b!"BIFF3"
  else if version = 1024 then b!"BIFF4"
  else if version = 1280 then b!"BIFF5"
  else if version = 1536 then b!"BIFF8"
  else b!"Unknown"

/-- MSExcel.common.hpp:35-44 `GetVisibilityStr`. -/
def GetVisibilityStr (visibility : Nat) : Bytes :=
  if visibility = 0 then b!"Visible"
  else if visibility = 1 then b!"Hidden"
  else if visibility = 2 then b!"Very Hidden"
  else b!"Unknown/Undocumented visiblitiy"

/-- MSExcel.common.hpp:46-56 `GetSheetTypeStr`. -/
def GetSheetTypeStr (type : Nat) : Bytes :=
  if type = 0 then b!"Worksheet/Dialog"
  else if type = 1 then b!"Macro sheet"
  else if type = 2 then b!"Chart sheet"
  else if type = 6 then b!"VBA Module"
  else b!"Unknown/Undocumented type"

/-- MSExcel.common.hpp:58-68 `ReadXNumFromBytes`: the bit pattern of the eight bytes; no bounds check. -/
def ReadXNumFromBytes (buffer : Bytes) (off : Nat) : Res Nat := do
  let bs ← rdRange buffer off 8
  .ok (leVal bs)

/-- MSExcel.common.hpp:74-77, the loop of `ColNumToName`; the first argument bounds the iterations. -/
def colLoop : Nat → Nat → Bytes → Bytes
  | 0, _, ans => ans
  | fuel + 1, n, ans =>
    if n > 0 then colLoop fuel ((n - 1) / 26) (UInt8.ofNat (65 + (n - 1) % 26) :: ans) else ans

/-- MSExcel.common.hpp:70-79 `ColNumToName`; `n` at most halves, so `n` iterations are enough. -/
def ColNumToName (col : Nat) : Bytes := colLoop col col []

/-- `ColNumToName(col + 1) << row + 1`, the idiom of structures/Cell.hpp:43, structures/formulas/PtgExp.hpp:41,
RgceLoc.hpp:24 and RgceArea.hpp:25: the argument is converted to `unsigned short`, `row + 1` is an `int`. -/
def cellRef (row col : Nat) : Bytes := ColNumToName (u16 (col + 1)) ++ dec (row + 1)

/-! ## Strings -/

/-- The UTF-8 encoding of a code point below 0x110000. -/
def utf8 (c : Nat) : Bytes :=
  if c < 0x80 then [UInt8.ofNat c]
  else if c < 0x800 then [UInt8.ofNat (0xC0 + c / 64), UInt8.ofNat (0x80 + c % 64)]
  else if c < 0x10000 then
    [UInt8.ofNat (0xE0 + c / 4096), UInt8.ofNat (0x80 + c / 64 % 64), UInt8.ofNat (0x80 + c % 64)]
  else
    [UInt8.ofNat (0xF0 + c / 262144), UInt8.ofNat (0x80 + c / 4096 % 64), UInt8.ofNat (0x80 + c / 64 % 64),
      UInt8.ofNat (0x80 + c % 64)]

/-- common.hpp:169-174 `convert(std::wstring)`: `codecvt_utf8<wchar_t>` writes each wide character as one
code point and `to_bytes` throws `range_error` at the first that is not one. (Simplification: which values
are refused is taken from the standard's description of the facet: above 0x10FFFF, and surrogates where
`wchar_t` holds UCS-4.) -/
def convert (abi : Abi) : List Nat → Res Bytes
  | [] => .ok []
  | c :: cs =>
    if c > 0x10FFFF then .throw .rangeError
    else if abi.wcharBytes = 4 ∧ 0xD800 ≤ c ∧ c ≤ 0xDFFF then .throw .rangeError
    else do
      let rest ← convert abi cs
      .ok (utf8 c ++ rest)

/-- `std::wstring(reinterpret_cast<wchar_t const*>(buffer + index), n)` followed by `convert`. -/
def wideString (abi : Abi) (buffer : Bytes) (index n : Nat) : Res Bytes := do
  let bs ← rdRange buffer index (n * abi.wcharBytes)
  convert abi (units abi.wcharBytes n bs)

/-- structures/ShortXLUnicodeString.hpp:23-49 `Read`: the text and `bytesRead`. -/
def ShortXLUnicodeString (abi : Abi) (buffer : Bytes) (offset : Nat) : Res (Bytes × Nat) := do
  let cch ← rd buffer offset
  let flags ← rd buffer (u32 (offset + 1))
  let fHighByte ← ExtractBits flags 1 1
  if fHighByte = 0 then do
    let s ← rdRange buffer (u32 (offset + 2)) cch.toNat
    .ok (s, 2 + cch.toNat)
  else do
    let s ← wideString abi buffer (u32 (offset + 2)) cch.toNat
    .ok (s, 2 + cch.toNat)

/-- structures/XLUnicodeString.hpp:24-51 `Read`. `fHighByte` is a one-bit field and is assigned
`buffer[index] & 128`, which is 0 modulo 2, so the wide branch (43-46) is never taken. -/
def XLUnicodeString (buffer : Bytes) (offset max : Nat) : Res (Bytes × Nat) := do
  let cch ← ReadUShort buffer max offset
  let _ ← rd buffer (u32 (offset + 2))
  let byteCount := if cch > max then max else cch
  let s ← rdRange buffer (u32 (offset + 3)) byteCount
  .ok (s, 3 + byteCount)

/-- structures/XLUnicodeStringNoCch.hpp:24-57, the constructor and `Parse` for a length given as an
`unsigned char`. For `offset > max` the flag is never assigned: reading it is undefined. The wide branch reads
`size * 2` wide characters. -/
def XLUnicodeStringNoCch (abi : Abi) (buffer : Bytes) (max offset size : Nat) : Res (Bytes × Nat) := do
  if offset > max then .ub .uninit
  else do
    let flags ← rd buffer offset
    let fHighByte ← ExtractBits flags 1 1
    let index := u32 (offset + 1)
    if fHighByte = 0 then
      if u32 (index + size) ≤ max then do
        let s ← rdRange buffer index size
        .ok (s, 1 + size)
      else .ok ([], 1)
    else
      if u32 (index + size * 2) ≤ max then do
        let s ← wideString abi buffer index (size * 2)
        .ok (s, 1 + size * 2)
      else .ok ([], 1)

/-- structures/XLUnicodeRichExtendedString.hpp:45-52: the optional run count and extension size are skipped. -/
def richHeader (buffer : Bytes) (max index : Nat) (fRichSt fExtSt : UInt8) : Res Nat := do
  let index ← if fRichSt = 1 then do let _ ← ReadUShort buffer max index; pure (u32 (index + 2)) else pure index
  if fExtSt = 1 then do
    let _ ← ReadSInt buffer max index
    .ok (u32 (index + 4))
  else .ok index

/-- structures/XLUnicodeRichExtendedString.hpp:31-81 `Read`. A negative `byteCount` makes the string
constructor throw `length_error`. -/
def XLUnicodeRichExtendedString (abi : Abi) (buffer : Bytes) (offset max : Nat) : Res (Bytes × Nat) := do
  let cch ← ReadUShort buffer max offset
  let flags ← rd buffer (u32 (offset + 2))
  let fHighByte ← ExtractBits flags 1 1
  let fExtSt ← ExtractBits flags 1 3
  let fRichSt ← ExtractBits flags 1 4
  let index ← richHeader buffer max (u32 (offset + 3)) fRichSt fExtSt
  let byteCount : Int := if u32 (cch + index) > max then toSigned 32 (sub32 max index) else cch
  if byteCount < 0 then .throw .lengthError
  else if fHighByte = 0 then do
    let s ← rdRange buffer index byteCount.toNat
    .ok (s, sub32 (u32 (index + byteCount.toNat)) offset)
  else do
    let s ← wideString abi buffer index byteCount.toNat
    .ok (erasenulls s, sub32 (u32 (index + byteCount.toNat * 2)) offset)

/-! ## Formula tokens -/

/-- structures/formulas/BErr.hpp:12-35 `ErrorValueString`. -/
def ErrorValueString (e : Nat) : Bytes :=
  if e = 0x00 then b!"#NULL!"
  else if e = 0x07 then b!"#DIV/0!"
  else if e = 0x0F then b!"#VALUE!"
  else if e = 0x17 then b!"#REF!"
  else if e = 0x1D then b!"#NAME?"
  else if e = 0x24 then b!"#NUM!"
  else if e = 0x2A then b!"#N/A"
  else if e = 0x2B then b!"#GETTING_DATA"
  else b!"#UNKNOWN"

/-- structures/formulas/helper.hpp:16-395 `GetFunctionName_FTab`. -/
def GetFunctionName_FTab (i : Nat) : Bytes := (lookup functions i).getD b!"Unknown_fTab_Function"
/-- structures/formulas/helper.hpp:403-806 `GetFunctionName_CeTab`. -/
def GetFunctionName_CeTab (i : Nat) : Bytes := (lookup commands i).getD b!"Unknown_CeTab_Function"

/-- A parsed token: the class of the `Ptg` object and the members its `to_string` uses. `named` stands for
the classes whose `to_string` is a constant. -/
inductive Ptg
  | unknown (type subtype : Nat)
  | named (text : Bytes)
  | exp (row col : Nat)
  | tbl (row col : Nat)
  | str (s : Bytes)
  | err (e : Nat)
  | bool (b : Nat)
  | int (n : Nat)
  | num (bits : Nat)
  | func (iftab : Nat)
  | funcVar (tab : Nat) (fCeFunc : Nat)
  | name (nameindex : Nat)
  | nameX (nameindex : Nat)
  | ref (row col : Nat)
  | ref3d (row col : Nat)
  | area (rowFirst rowLast colFirst colLast : Nat)
  | area3d (rowFirst rowLast colFirst colLast : Nat)
  deriving DecidableEq, Repr

/-- structures/ColRelU.hpp:25-33 `Parse`: the column is a 14-bit field. -/
def ColRelU (buffer : Bytes) (max offset : Nat) : Res Nat := do
  let x ← ReadUShort buffer max offset
  let _ ← rd buffer (u32 (offset + 1))
  .ok (x % 16384)

/-- structures/ColRelNegU.hpp:25-35 `Parse`; nothing of it is shown. (Simplification: shifting a negative
`int` to the left is taken to be defined, as GCC and MSVC do.) -/
def ColRelNegU (buffer : Bytes) (max offset : Nat) : Res Unit := do
  let _ ← ReadSShort buffer max offset
  let _ ← rd buffer (u32 (offset + 1))
  .ok ()

/-- structures/formulas/RgceLoc.hpp:27-37 `Parse`: row and column. -/
def RgceLoc (buffer : Bytes) (max offset : Nat) : Res (Nat × Nat) := do
  let row ← ReadUShort buffer max offset
  let col ← ColRelU buffer max (u32 (offset + 2))
  .ok (row, col)

/-- structures/formulas/RgceArea.hpp:28-44 `Parse`. -/
def RgceArea (buffer : Bytes) (max offset : Nat) : Res (Nat × Nat × Nat × Nat) := do
  let r1 ← ReadUShort buffer max offset
  let r2 ← ReadUShort buffer max (u32 (offset + 2))
  let c1 ← ColRelU buffer max (u32 (offset + 4))
  let c2 ← ColRelU buffer max (u32 (offset + 6))
  .ok (r1, r2, c1, c2)

/-- structures/formulas/RgceElfLoc.hpp:19-23 `Parse` (with structures/ColElfU.hpp, which reads like
`ColRelU`). -/
def RgceElfLoc (buffer : Bytes) (max offset : Nat) : Res Unit := do
  let _ ← ReadUShort buffer max offset
  let _ ← ColRelU buffer max (u32 (offset + 2))
  .ok ()

/-- structures/formulas/Ptg.hpp:63-68 `PtgBasic_elf::Parse`: six bytes. -/
def PtgBasicElf (buffer : Bytes) (max offset : Nat) : Res Unit := do
  let _ ← rd buffer offset
  let _ ← rd buffer (u32 (offset + 1))
  RgceElfLoc buffer max (u32 (offset + 2))

/-- structures/formulas/Ptg.hpp:75-84 `PtgSubType_ixti::Parse`: three bytes. -/
def PtgSubTypeIxti (buffer : Bytes) (max offset : Nat) : Res Unit := do
  let _ ← ReadUShort buffer max (u32 (offset + 1))
  .ok ()

/-- structures/formulas/PtgElfLel.hpp:28-40 and PtgElfRadicalLel.hpp:27-39 `Parse`: ten bytes. -/
def elfLel (buffer : Bytes) (max offset : Nat) (text : Bytes) : Res (Ptg × Nat) := do
  PtgBasicElf buffer max offset
  let _ ← ReadUShort buffer max (u32 (offset + 6))
  let _ ← rd buffer (u32 (offset + 8))
  let _ ← ReadUShort buffer max (u32 (offset + 8))
  .ok (.named text, 10)

/-- structures/formulas/PtgElfRw.hpp:25-33, PtgElfRwV.hpp:25-33, PtgElfRadical.hpp:26-34 `Parse`. -/
def elfLoc (buffer : Bytes) (max offset : Nat) (text : Bytes) : Res (Ptg × Nat) := do
  PtgBasicElf buffer max offset
  RgceElfLoc buffer max (u32 (offset + 6))
  .ok (.named text, 10)

/-- structures/formulas/PtgElfCol.hpp, PtgElfColV.hpp, PtgElfColS.hpp, PtgElfColSV.hpp:21-23: only
`PtgBasic_elf::Parse`. -/
def elfCol (buffer : Bytes) (max offset : Nat) (text : Bytes) : Res (Ptg × Nat) := do
  PtgBasicElf buffer max offset
  .ok (.named text, 6)

/-- structures/formulas/PtgElfRadicalS.hpp:26-34 (reads at `offset`) and PtgSxName.hpp:25-33 (reads at
`offset + 6`) `Parse`. -/
def elfUInt (buffer : Bytes) (max offset at_ : Nat) (text : Bytes) : Res (Ptg × Nat) := do
  PtgBasicElf buffer max offset
  let _ ← ReadUInt buffer max at_
  .ok (.named text, 10)

/-- structures/formulas/Rgce.hpp:52-70, the inner `switch` for type 0x18. -/
def parseElf (buffer : Bytes) (max index : Nat) : Res (Ptg × Nat) := do
  let subType ← rd buffer (u32 (index + 1))
  if subType = 0x01 then elfLel buffer max index b!"PtgElfLel"
  else if subType = 0x02 then elfLoc buffer max index b!"PtgElfRw"
  else if subType = 0x03 then elfCol buffer max index b!"PtgElfCol"
  else if subType = 0x06 then elfLoc buffer max index b!"PtgElfRwV"
  else if subType = 0x07 then elfCol buffer max index b!"PtgElfColV"
  else if subType = 0x0A then elfLoc buffer max index b!"PtgElfRadical"
  else if subType = 0x0B then elfUInt buffer max index index b!"PtgElfRadicalS"
  else if subType = 0x0D then elfCol buffer max index b!"PtgElfColS"
  else if subType = 0x0F then elfCol buffer max index b!"PtgElfColSV"
  else if subType = 0x10 then elfLel buffer max index b!"PtgElfRadicalLel"
  else if subType = 0x1D then elfUInt buffer max index (u32 (index + 6)) b!"PtgSxName"
  else .ok (.unknown 0x18 subType.toNat, 0)

/-- structures/formulas/PtgAttrSemi.hpp:26-38, PtgAttrIf.hpp:27-40, PtgAttrGoto.hpp, PtgAttrSum.hpp,
PtgAttrBaxcel.hpp:29-44 `Parse`: a flag byte and an `unsigned short`. -/
def attrWord (buffer : Bytes) (max index : Nat) (text : Bytes) : Res (Ptg × Nat) := do
  let _ ← rd buffer (u32 (index + 1))
  let _ ← ReadUShort buffer max (u32 (index + 2))
  .ok (.named text, 4)

/-- structures/formulas/PtgAttrChoose.hpp:40-44, the loop over `cOffset` jump offsets; the first argument is
the number left. The result is the index behind them. -/
def chooseLoop (buffer : Bytes) (max : Nat) : Nat → Nat → Res Nat
  | 0, index => .ok index
  | n + 1, index => do
    let _ ← ReadUShort buffer max index
    chooseLoop buffer max n (u32 (index + 2))

/-- structures/formulas/PtgAttrChoose.hpp:28-47 `Parse`; 46 computes `offset - index`, the negated length. -/
def attrChoose (buffer : Bytes) (max offset : Nat) : Res (Ptg × Nat) := do
  let _ ← rd buffer (u32 (offset + 1))
  let cOffset ← ReadUShort buffer max (u32 (offset + 2))
  let index ← chooseLoop buffer max cOffset (u32 (offset + 4))
  .ok (.named b!"PtgAttrChoose", sub32 offset index)

/-- structures/formulas/PtgAttrSpace.hpp:31-44, PtgAttrSpaceSemi.hpp:27-38 with PtgAttrSpaceType.hpp:23-30
`Parse`: the inner `bytesRead` stays indeterminate if the guard fails. -/
def attrSpace (buffer : Bytes) (max offset : Nat) (text : Bytes) : Res (Ptg × Nat) := do
  let _ ← rd buffer (u32 (offset + 1))
  let index := u32 (offset + 2)
  if index + 1 ≤ max then do
    let _ ← rd buffer index
    let _ ← rd buffer (u32 (index + 1))
    .ok (.named text, 4)
  else .ub .uninit

/-- structures/formulas/Rgce.hpp:71-88, the inner `switch` for type 0x19. -/
def parseAttr (buffer : Bytes) (max index : Nat) : Res (Ptg × Nat) := do
  let subType ← rd buffer (u32 (index + 1))
  if subType = 0x01 then attrWord buffer max index b!"PtgAttrSemi"
  else if subType = 0x02 then attrWord buffer max index b!"PtgAttrIf"
  else if subType = 0x04 then attrChoose buffer max index
  else if subType = 0x08 then attrWord buffer max index b!"PtgAttrGoto"
  else if subType = 0x10 then attrWord buffer max index b!"PtgAttrSum"
  else if subType = 0x20 ∨ subType = 0x21 then attrWord buffer max index b!"PtgAttrBaxcel"
  else if subType = 0x40 then attrSpace buffer max index b!"PtgAttrSpace"
  else if subType = 0x41 then attrSpace buffer max index b!"PtgAttrSpaceSemi"
  else .ok (.unknown 0x19 subType.toNat, 0)

/-- structures/formulas/PtgAdd.hpp … PtgMissArg.hpp (`to_string` of each): the one-byte tokens 0x03–0x16 of
Rgce.hpp:31-50. -/
def basicName (t : Nat) : Bytes :=
  if t = 0x03 then b!"PtgAdd" else if t = 0x04 then b!"PtgSub" else if t = 0x05 then b!"PtgMul"
  else if t = 0x06 then b!"PtgDiv" else if t = 0x07 then b!"PtgPower" else if t = 0x08 then b!"PtgConcat"
  else if t = 0x09 then b!"PtgLt" else if t = 0x0A then b!"PtgLe" else if t = 0x0B then b!"PtgEq"
  else if t = 0x0C then b!"PtgGe" else if t = 0x0D then b!"PtgGt" else if t = 0x0E then b!"PtgNe"
  else if t = 0x0F then b!"PtgIsect" else if t = 0x10 then b!"PtgUnion" else if t = 0x11 then b!"PtgRange"
  else if t = 0x12 then b!"PtgUplus" else if t = 0x13 then b!"PtgUminus" else if t = 0x14 then b!"PtgPercent"
  else if t = 0x15 then b!"PtgParen" else b!"PtgMissArg"

/-- structures/formulas/PtgExp.hpp:26-37 and PtgTbl.hpp:25-36 `Parse`: row and column. -/
def rowCol (buffer : Bytes) (max index : Nat) : Res (Nat × Nat) := do
  let row ← ReadUShort buffer max (u32 (index + 1))
  let col ← ReadUShort buffer max (u32 (index + 3))
  .ok (row, col)

/-- structures/formulas/PtgArray.hpp:26-40 `Parse`. -/
def ptgArray (buffer : Bytes) (max index : Nat) : Res (Ptg × Nat) := do
  let _ ← rd buffer (u32 (index + 1))
  let _ ← ReadUShort buffer max (u32 (index + 2))
  let _ ← ReadUInt buffer max (u32 (index + 4))
  .ok (.named b!"PtgArray", 8)

/-- structures/formulas/PtgFuncVar.hpp:27-33 `Parse`: `tab` has 15 bits; `fCeFunc` is taken from bit 6 of the
high byte. -/
def ptgFuncVar (buffer : Bytes) (max index : Nat) : Res (Ptg × Nat) := do
  let _ ← rd buffer (u32 (index + 1))
  let tab ← ReadUShort buffer max (u32 (index + 2))
  let hi ← rd buffer (u32 (index + 3))
  let fCeFunc ← ExtractBits hi 1 7
  .ok (.funcVar (tab % 32768) fCeFunc.toNat, 4)

/-- structures/formulas/PtgMemArea.hpp:27-38 and PtgMemNoMem.hpp:27-38 `Parse`. -/
def ptgMem (buffer : Bytes) (max index : Nat) (text : Bytes) : Res (Ptg × Nat) := do
  let _ ← ReadUInt buffer max (u32 (index + 1))
  let _ ← ReadUShort buffer max (u32 (index + 5))
  .ok (.named text, 7)

/-- structures/formulas/PtgMemErr.hpp:29-43 `Parse`: six bytes (the error code is not read). -/
def ptgMemErr (buffer : Bytes) (max index : Nat) : Res (Ptg × Nat) := do
  let _ ← rd buffer (u32 (index + 1))
  let _ ← ReadUShort buffer max (u32 (index + 2))
  let _ ← ReadUShort buffer max (u32 (index + 4))
  .ok (.named b!"PtgMemErr", 6)

/-- structures/formulas/PtgRefErr.hpp:27-38 `Parse`. -/
def ptgRefErr (buffer : Bytes) (max index : Nat) : Res (Ptg × Nat) := do
  let _ ← ReadUShort buffer max (u32 (index + 1))
  let _ ← ReadUShort buffer max (u32 (index + 3))
  .ok (.named b!"PtgRefErr", 5)

/-- structures/formulas/PtgAreaErr.hpp:27-44 `Parse`. -/
def ptgAreaErr (buffer : Bytes) (max index : Nat) : Res (Ptg × Nat) := do
  let _ ← ReadUShort buffer max (u32 (index + 1))
  let _ ← ReadUShort buffer max (u32 (index + 3))
  let _ ← ReadUShort buffer max (u32 (index + 5))
  let _ ← ReadUShort buffer max (u32 (index + 7))
  .ok (.named b!"PtgAreaErr", 9)

/-- structures/formulas/PtgRefN.hpp:27-35 with RgceLocRel.hpp:21-31 `Parse`: the column is read at the row's
place. -/
def ptgRefN (buffer : Bytes) (max index : Nat) : Res (Ptg × Nat) := do
  let _ ← ReadUShort buffer max (u32 (index + 1))
  ColRelNegU buffer max (u32 (index + 1))
  .ok (.named b!"PtgRefN", 5)

/-- structures/formulas/PtgAreaN.hpp:25-31 with RgceAreaRel.hpp:21-28 `Parse`. -/
def ptgAreaN (buffer : Bytes) (max index : Nat) : Res (Ptg × Nat) := do
  let _ ← ReadUShort buffer max (u32 (index + 1))
  let _ ← ReadUShort buffer max (u32 (index + 3))
  ColRelNegU buffer max (u32 (index + 5))
  ColRelNegU buffer max (u32 (index + 7))
  .ok (.named b!"PtgAreaN", 9)

/-- structures/formulas/PtgRefErr3d.hpp:27-38 `Parse`. -/
def ptgRefErr3d (buffer : Bytes) (max index : Nat) : Res (Ptg × Nat) := do
  PtgSubTypeIxti buffer max index
  let _ ← ReadUShort buffer max (u32 (index + 3))
  let _ ← ReadUShort buffer max (u32 (index + 5))
  .ok (.named b!"PtgRefErr3d", 7)

/-- structures/formulas/PtgAreaErr3d.hpp:26-43 `Parse`: 42 adds the length to the three bytes already
counted. -/
def ptgAreaErr3d (buffer : Bytes) (max index : Nat) : Res (Ptg × Nat) := do
  PtgSubTypeIxti buffer max index
  let _ ← ReadUShort buffer max (u32 (index + 3))
  let _ ← ReadUShort buffer max (u32 (index + 5))
  let _ ← ReadUShort buffer max (u32 (index + 7))
  let _ ← ReadUShort buffer max (u32 (index + 9))
  .ok (.named b!"PtgAreaErr3d", 14)

/-- structures/formulas/PtgExp.hpp:26-37 `Parse`. -/
def ptgExp (buffer : Bytes) (max index : Nat) : Res (Ptg × Nat) := do
  let rc ← rowCol buffer max index
  .ok (.exp rc.1 rc.2, 5)
/-- structures/formulas/PtgTbl.hpp:25-36 `Parse`. -/
def ptgTbl (buffer : Bytes) (max index : Nat) : Res (Ptg × Nat) := do
  let rc ← rowCol buffer max index
  .ok (.tbl rc.1 rc.2, 5)
/-- structures/formulas/PtgStr.hpp:25-34 `Parse`. -/
def ptgStr (abi : Abi) (buffer : Bytes) (index : Nat) : Res (Ptg × Nat) := do
  let s ← ShortXLUnicodeString abi buffer (u32 (index + 1))
  .ok (.str s.1, 1 + s.2)
/-- structures/formulas/PtgErr.hpp:28-32 `Parse`. -/
def ptgErr (buffer : Bytes) (index : Nat) : Res (Ptg × Nat) := do
  let b ← rd buffer (u32 (index + 1))
  .ok (.err b.toNat, 2)
/-- structures/formulas/PtgBool.hpp:26-30 `Parse`. -/
def ptgBool (buffer : Bytes) (index : Nat) : Res (Ptg × Nat) := do
  let b ← rd buffer (u32 (index + 1))
  .ok (.bool b.toNat, 2)
/-- structures/formulas/PtgInt.hpp:26-30 `Parse`. -/
def ptgInt (buffer : Bytes) (max index : Nat) : Res (Ptg × Nat) := do
  let n ← ReadUShort buffer max (u32 (index + 1))
  .ok (.int n, 3)
/-- structures/formulas/PtgNum.hpp:25-29 `Parse`. -/
def ptgNum (buffer : Bytes) (index : Nat) : Res (Ptg × Nat) := do
  let x ← ReadXNumFromBytes buffer (u32 (index + 1))
  .ok (.num x, 9)
/-- structures/formulas/PtgFunc.hpp:25-29 `Parse`. -/
def ptgFunc (buffer : Bytes) (max index : Nat) : Res (Ptg × Nat) := do
  let i ← ReadUShort buffer max (u32 (index + 1))
  .ok (.func i, 3)
/-- structures/formulas/PtgName.hpp:26-34 `Parse` (little-endian). -/
def ptgName (buffer : Bytes) (max index : Nat) : Res (Ptg × Nat) := do
  let i ← ReadUInt buffer max (u32 (index + 1)) true
  .ok (.name i, 5)
/-- structures/formulas/PtgRef.hpp:26-34 `Parse`. -/
def ptgRef (buffer : Bytes) (max index : Nat) : Res (Ptg × Nat) := do
  let l ← RgceLoc buffer max (u32 (index + 1))
  .ok (.ref l.1 l.2, 5)
/-- structures/formulas/PtgArea.hpp:22-28 `Parse`: the area is parsed at `offset`, the token's own byte. -/
def ptgArea (buffer : Bytes) (max index : Nat) : Res (Ptg × Nat) := do
  let a ← RgceArea buffer max index
  .ok (.area a.1 a.2.1 a.2.2.1 a.2.2.2, 9)
/-- structures/formulas/PtgMemFunc.hpp:27-35 `Parse`. -/
def ptgMemFunc (buffer : Bytes) (max index : Nat) : Res (Ptg × Nat) := do
  let _ ← ReadUShort buffer max (u32 (index + 1))
  .ok (.named b!"PtgMemFunc", 3)
/-- structures/formulas/PtgNameX.hpp:28-36 `Parse`. -/
def ptgNameX (buffer : Bytes) (max index : Nat) : Res (Ptg × Nat) := do
  PtgSubTypeIxti buffer max index
  let i ← ReadUInt buffer max (u32 (index + 3)) true
  .ok (.nameX i, 7)
/-- structures/formulas/PtgRef3d.hpp:27-35 `Parse`. -/
def ptgRef3d (buffer : Bytes) (max index : Nat) : Res (Ptg × Nat) := do
  PtgSubTypeIxti buffer max index
  let l ← RgceLoc buffer max (u32 (index + 3))
  .ok (.ref3d l.1 l.2, 7)
/-- structures/formulas/PtgArea3d.hpp:26-31 `Parse`. -/
def ptgArea3d (buffer : Bytes) (max index : Nat) : Res (Ptg × Nat) := do
  PtgSubTypeIxti buffer max index
  let a ← RgceArea buffer max (u32 (index + 3))
  .ok (.area3d a.1 a.2.1 a.2.2.1 a.2.2.2, 11)

/-- The three data type variants of an operand token (`case 0x24: case 0x44: case 0x64:` and so on). -/
def variant (t base : Nat) : Bool := t == base || t == base + 0x20 || t == base + 0x40

/-- structures/formulas/Rgce.hpp:26-173, the body of the loop: the token at `index` and how far the index
moves (the token's `bytesRead`, plus one in the `default` case). -/
def parsePtg (abi : Abi) (buffer : Bytes) (max index : Nat) : Res (Ptg × Nat) := do
  let b ← rd buffer index
  let t := b.toNat
  if t = 0x01 then ptgExp buffer max index
  else if t = 0x02 then ptgTbl buffer max index
  else if 0x03 ≤ t ∧ t ≤ 0x16 then .ok (.named (basicName t), 1)
  else if t = 0x17 then ptgStr abi buffer index
  else if t = 0x18 then parseElf buffer max index
  else if t = 0x19 then parseAttr buffer max index
  else if t = 0x1C then ptgErr buffer index
  else if t = 0x1D then ptgBool buffer index
  else if t = 0x1E then ptgInt buffer max index
  else if t = 0x1F then ptgNum buffer index
  else if variant t 0x20 then ptgArray buffer max index
  else if variant t 0x21 then ptgFunc buffer max index
  else if variant t 0x22 then ptgFuncVar buffer max index
  else if variant t 0x23 then ptgName buffer max index
  else if variant t 0x24 then ptgRef buffer max index
  else if variant t 0x25 then ptgArea buffer max index
  else if variant t 0x26 then ptgMem buffer max index b!"PtgMemArea"
  else if variant t 0x27 then ptgMemErr buffer max index
  else if variant t 0x28 then ptgMem buffer max index b!"PtgMemNoMem"
  else if variant t 0x29 then ptgMemFunc buffer max index
  else if variant t 0x2A then ptgRefErr buffer max index
  else if variant t 0x2B then ptgAreaErr buffer max index
  else if variant t 0x2C then ptgRefN buffer max index
  else if variant t 0x2D then ptgAreaN buffer max index
  else if variant t 0x39 then ptgNameX buffer max index
  else if variant t 0x3A then ptgRef3d buffer max index
  else if variant t 0x3B then ptgArea3d buffer max index
  else if variant t 0x3C then ptgRefErr3d buffer max index
  else if variant t 0x3D then ptgAreaErr3d buffer max index
  else .ok (.unknown t 0, 1)

/-- structures/formulas/Rgce.hpp:23-177, the loop of `Parse`: the tokens and the final index. The first
argument is the step budget. (Simplification: memory for the tokens never runs out.) -/
def rgceLoop (abi : Abi) (buffer : Bytes) (max : Nat) : Nat → Nat → List Ptg → Res (List Ptg × Nat)
  | 0, _, _ => .fuel
  | fuel + 1, index, list =>
    if index < max then do
      let p ← parsePtg abi buffer max index
      rgceLoop abi buffer max fuel (u32 (index + p.2)) (list ++ [p.1])
    else .ok (list, index)

/-- structures/formulas/Rgce.hpp:20-180 `Rgce::Parse`: the tokens and `bytesRead`, within `fuel` steps. -/
def Rgce.Parse (abi : Abi) (fuel : Nat) (buffer : Bytes) (max offset : Nat) : Res (List Ptg × Nat) := do
  let r ← rgceLoop abi buffer max fuel offset []
  .ok (r.1, sub32 r.2 offset)

/-- structures/formulas/RgbExtra.hpp:18-22 `Parse`: copies `[&buffer[index], &buffer[max])`; a reversed range
is undefined. -/
def RgbExtra (buffer : Bytes) (max offset : Nat) : Res Unit :=
  if offset > max then .ub .oobRead
  else do
    let _ ← rdRange buffer offset (max - offset)
    .ok ()

/-- The `to_string` of each token class (structures/formulas/Ptg*.hpp). `PtgName` and `PtgNameX` are only
printed through `ToTextString`. -/
def Ptg.to_string (fmt : Fmt) : Ptg → Bytes
  | .unknown t s => b!"UnknownPTG(type=" ++ dec t ++ b!",subType=" ++ dec s ++ b!")"
  | .named text => text
  | .exp row col => b!"PtgExp(" ++ cellRef row col ++ b!")"
  | .tbl row col => b!"PtgTbl(" ++ ColNumToName col ++ dec row ++ b!")"
  | .str s => b!"PtgStr(\"" ++ s ++ b!"\")"
  | .err e => b!"PtgErr('" ++ ErrorValueString e ++ b!"')"
  | .bool b => b!"PtgBool(" ++ (if b ≠ 0 then b!"true" else b!"false") ++ b!")"
  | .int n => b!"PtgInt(" ++ dec n ++ b!")"
  | .num bits => b!"PtgNum(" ++ fmt.f64 bits ++ b!")"
  | .func i => b!"PtgFunc(" ++ GetFunctionName_FTab i ++ b!")"
  | .funcVar tab fCeFunc =>
    b!"PtgFuncVar(" ++ (if fCeFunc = 1 then GetFunctionName_CeTab tab else GetFunctionName_FTab tab) ++ b!")"
  | .name i => b!"PtgName(" ++ dec i ++ b!")"
  | .nameX i => b!"PtgNameX(" ++ dec i ++ b!")"
  | .ref row col => b!"PtgRef(" ++ cellRef row col ++ b!")"
  | .ref3d row col => b!"PtgRef3d(" ++ cellRef row col ++ b!")"
  | .area r1 r2 c1 c2 => b!"PtgArea(" ++ cellRef r1 c1 ++ b!":" ++ cellRef r2 c2 ++ b!")"
  | .area3d r1 r2 c1 c2 => b!"PtgArea3d(" ++ cellRef r1 c1 ++ b!":" ++ cellRef r2 c2 ++ b!")"

/-- structures/formulas/Rgce.hpp:186-201, one token of `ToTextString`. `names type idx` is
`dynamic_cast<INameable*>(engine->GetRecordOfType(type, idx))` with `GetName()` applied: nothing is printed
when there is no such record. The index is converted to `unsigned short`. -/
def ptgText (fmt : Fmt) (names : Nat → Nat → Option Bytes) : Ptg → Bytes
  | .name i =>
    match names 0x0018 (u16 (sub32 i 1)) with
    | some n => b!"PtgName(" ++ n ++ b!")"
    | none => []
  | .nameX i =>
    match names 0x0023 (u16 (sub32 i 1)) with
    | some n => b!"PtgNameX(" ++ n ++ b!")"
    | none => []
  | p => p.to_string fmt

/-- structures/formulas/Rgce.hpp:182-204 `ToTextString`: the tokens separated by `;`. -/
def ToTextString (fmt : Fmt) (names : Nat → Nat → Option Bytes) (list : List Ptg) : Bytes :=
  vectorJoin (list.map (ptgText fmt names)) b!";"

end Fileid.Excel
