import Verif.Model.Common
import Verif.Model.Tables

/-!
# Model of `fileid/media/riff/riff.hpp`, `media/jpeg.hpp`, `media/mp4/mp4.hpp`, `document/dwg/autocad.hpp`
-/

namespace Fileid.Media

open Common Tables

/-- media/riff/riff.hpp:10 -/
def magic_cda : Bytes := [0x43, 0x44, 0x44, 0x41, 0x66, 0x6D, 0x74, 0x20]
/-- media/riff/riff.hpp:11 -/
def magic_wav : Bytes := [0x57, 0x41, 0x56, 0x45, 0x66, 0x6D, 0x74, 0x20]
/-- media/riff/riff.hpp:12 -/
def magic_avi : Bytes := [0x41, 0x56, 0x49, 0x20, 0x4C, 0x49, 0x53, 0x54]
/-- media/riff/riff.hpp:13 -/
def magic_qcp : Bytes := [0x51, 0x4C, 0x43, 0x4D, 0x66, 0x6D, 0x74, 0x20]
/-- media/riff/riff.hpp:14 -/
def magic_rmi : Bytes := [0x52, 0x4D, 0x49, 0x44, 0x64, 0x61, 0x74, 0x61]

/-- media/riff/riff.hpp:20-31, the if-chain that picks the extension. -/
def riffExtension (buffer : Bytes) : Res Bytes := do
  let size := buffer.length
  if ← checkMagic buffer size magic_cda 8 8 then .ok b!"cda"
  else if ← checkMagic buffer size magic_wav 8 8 then .ok b!"wav"
  else if ← checkMagic buffer size magic_avi 8 8 then .ok b!"avi"
  else if ← checkMagic buffer size magic_qcp 8 8 then .ok b!"qcp"
  else if ← checkMagic buffer size magic_rmi 8 8 then .ok b!"rmi"
  else .ok b!"riff"

/-- media/riff/riff.hpp:8-35 `RIFFHelper`. -/
def RIFFHelper (buffer : Bytes) : Res (List Item) := do
  let ext ← riffExtension buffer
  .ok [Item.generic { Extension := ext }]

/-- media/jpeg.hpp:8-14 `Detailer`. -/
def jpegDetailer : Res (List Item) := .ok [Item.generic { Extension := b!"jpg" }]

/-- media/mp4/mp4.hpp:9-19 `Mp4ExtensionInfo`. Its own `Version` hides the base member, and its export
functions (20-59) lack `const` and do not override the base class's. -/
structure Mp4Info where
  base : ExtInfo := { Extension := b!"mp4", VersionName := b!"MPEG-4 Media File" }
  Version : Nat := 0
  Brand : Bytes := []
  BrandCode : Bytes := []
  deriving DecidableEq, Repr

/-- media/mp4/mp4.hpp:64-126 `GetBrandName`. -/
def GetBrandName (brandcode : Bytes) : Bytes := (lookup mp4Brands brandcode).getD b!"Unknonw FTYP"

/-- media/mp4/mp4.hpp:128-144 `Detailer`: `ReadUInt` at 12 first, then the range 8..11. -/
def mp4DetailerInfo (buffer : Bytes) : Res Mp4Info := do
  let version ← ReadUInt buffer buffer.length 12
  let brandcode ← rdRange buffer 8 4
  .ok { Version := version, BrandCode := brandcode, Brand := GetBrandName brandcode }

/-- media/mp4/mp4.hpp:128-144 `Detailer`, as a list of items. -/
def mp4Detailer (buffer : Bytes) : Res (List Item) := do
  let info ← mp4DetailerInfo buffer
  .ok [Item.generic info.base]

/-- document/dwg/autocad.hpp:16-47, the nested comparisons. -/
def dwgVersionName (b4 b5 : UInt8) : Bytes :=
  if b4 = 0x30 then
    if b5 = 0x32 then b!"AutoCAD R2.5"
    else if b5 = 0x33 then b!"AutoCAD R2.6"
    else if b5 = 0x34 then b!"AutoCAD R9"
    else if b5 = 0x36 then b!"AutoCAD R10"
    else if b5 = 0x39 then b!"AutoCAD R11/R12"
    else []
  else if b4 = 0x31 then
    if b5 = 0x30 then b!"AutoCAD R13 (subtype 10)"
    else if b5 = 0x31 then b!"AutoCAD R13 (subtype 11)"
    else if b5 = 0x32 then b!"AutoCAD R13 (subtype 12)"
    else if b5 = 0x33 then b!"AutoCAD R14 (subtype 13)"
    else if b5 = 0x34 then b!"AutoCAD R14 (subtype 14)"
    else if b5 = 0x35 then b!"AutoCAD R2000"
    else if b5 = 0x38 then b!"AutoCAD R2004"
    else []
  else if b4 = 0x32 then
    if b5 = 0x31 then b!"AutoCAD R2007"
    else []
  else []

/-- document/dwg/autocad.hpp:9-51 `DwgHelper`. -/
def DwgHelper (buffer : Bytes) : Res (List Item) := do
  if buffer.length > 5 then do
    let b4 ← rd buffer 4
    let b5 ← rd buffer 5
    .ok [Item.generic { Extension := b!"dwg", VersionName := dwgVersionName b4 b5 }]
  else .ok [Item.generic { Extension := b!"dwg" }]

end Fileid.Media
