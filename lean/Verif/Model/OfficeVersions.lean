import Verif.Model.Common
import Verif.Model.Tables

/-!
# Model of `fileid/document/{word/word,pubisher/pub,visio/vsd,powerpoint/ppt,msi/msi}.hpp`

A stream is cast to a structure pointer; reading a member is a read of the stream's bytes at the member's
offset. Simplification: that such a pointer may be misaligned, and that the stream holds no object of the
structure's type, is ignored (both targets are x86).
-/

namespace Fileid.Office

open Common Tables

/-- A member of `n` bytes at offset `off` of the structure that starts at `base` in `stream`. -/
def member (stream : Bytes) (base off n : Nat) : Res Nat := do
  let bs ← rdRange stream (base + off) n
  .ok (leVal bs)

/-- document/word/word.hpp:32-39 `sizeof(Fib)`: `base.nFib` at 2, `cbRgFcLcb` at 152. -/
def sizeofFib : Nat := 154
/-- document/word/word.hpp:41-44 `sizeof(Fib2)`: `cswNew` at 0, `nFibNew` at 2. -/
def sizeofFib2 : Nat := 4

/-- document/word/word.hpp:47-75 `GetnFib`; `return -1` is converted to `unsigned short`. -/
def GetnFib (stream : Bytes) : Res Nat := do
  let max := stream.length
  if sizeofFib > max then .ok 65535
  else do
    let nFib ← member stream 0 2 2
    let cbRgFcLcb ← member stream 0 152 2
    if cbRgFcLcb > 0x00FF then .ok nFib
    else do
      let index := u32 (sizeofFib + cbRgFcLcb * 8)
      if index + sizeofFib2 > max then .ok nFib
      else do
        let cswNew ← member stream index 0 2
        if cswNew ≠ 0 then member stream index 2 2 else .ok nFib

/-- document/word/word.hpp:76-94 `GetVersion_Word`. -/
def GetVersion_Word (version : Nat) : Bytes := (lookup wordVersions version).getD b!"Unknown"

/-- document/word/word.hpp:95-98 `Detailer`: the object it changes is returned. -/
def wordDetailer (e : ExtInfo) (stream : Bytes) : Res ExtInfo := do
  let v ← GetnFib stream
  .ok { e with Version := v, VersionName := GetVersion_Word v }

/-- document/pubisher/pub.hpp:9-16, offset of `version2` in `PubHeader`: it follows an `unsigned long`
aligned to its size, at offset 8. -/
def pubVersion2 (abi : Abi) : Nat := 8 + abi.ulongBytes

/-- document/pubisher/pub.hpp:18-33 `GetPubVersion`: no size check. -/
def GetPubVersion (abi : Abi) (stream : Bytes) : Res Nat := do
  let version ← member stream 0 4 2
  if version = 300 then member stream 0 (pubVersion2 abi) 2 else .ok version

/-- document/pubisher/pub.hpp:34-46 `GetVersion_Publisher`. -/
def GetVersion_Publisher (version : Nat) : Bytes := (lookup publisherVersions version).getD b!"Unknown"

/-- document/pubisher/pub.hpp:48-51 `Detailer`. -/
def pubDetailer (abi : Abi) (e : ExtInfo) (stream : Bytes) : Res ExtInfo := do
  let v ← GetPubVersion abi stream
  .ok { e with Version := v, VersionName := GetVersion_Publisher v }

/-- document/visio/vsd.hpp:17-25 `GetVisoVersion`: `major` is at offset 26 of `VsdHeader`; no size check. -/
def GetVisoVersion (stream : Bytes) : Res Nat := member stream 0 26 2

/-- document/visio/vsd.hpp:26-41 `GetVersion_Visio`. -/
def GetVersion_Visio (version : Nat) : Bytes := (lookup visioVersions version).getD b!"Unknown"

/-- document/visio/vsd.hpp:43-46 `Detailer`. -/
def visioDetailer (e : ExtInfo) (stream : Bytes) : Res ExtInfo := do
  let v ← GetVisoVersion stream
  .ok { e with Version := v, VersionName := GetVersion_Visio v }

/-- document/powerpoint/ppt.hpp:11-67, the layout the compiler gives the structures. `RecordHeader` has two
16-bit units of bit fields and an `unsigned long`; every `unsigned long` is aligned to its size. -/
structure PptLayout where
  /-- `sizeof(CurrentUserAtom)` -/
  sizeofCua : Nat
  /-- offset of `CurrentUserAtom::offsetToCurrentEdit` -/
  offEdit : Nat
  /-- `sizeof(UserEditAtom)` -/
  sizeofUea : Nat
  /-- offset of `UserEditAtom::version` -/
  offVersion : Nat
  deriving DecidableEq, Repr

/-- document/powerpoint/ppt.hpp:11-67, with `unsigned long` of 8 and of 4 bytes. -/
def pptLayout (abi : Abi) : PptLayout :=
  if abi.ulongBytes = 8 then ⟨48, 32, 72, 24⟩ else ⟨28, 16, 36, 12⟩

/-- document/powerpoint/ppt.hpp:73-97 `GetPptVersion`. `currentUser` is the content of the stream
`/Current User`; `offsetToCurrentEdit` is narrowed to `unsigned int`. -/
def GetPptVersion (abi : Abi) (currentUser stream : Bytes) : Res Nat := do
  let L := pptLayout abi
  if L.sizeofCua > currentUser.length then .ok 65535
  else do
    let off ← member currentUser 0 L.offEdit abi.ulongBytes
    let index := u32 off
    if index + L.sizeofUea > stream.length then .ok 65535
    else member stream index L.offVersion 2

/-- document/powerpoint/ppt.hpp:69-71 `withinCheck` (all calls have `range ≤ target`). -/
def withinCheck (num target range : Nat) : Bool := decide (num ≥ target - range) && decide (num ≤ target + range)

/-- document/powerpoint/ppt.hpp:99-182 `GetVersion_Powerpoint`: the first test that succeeds decides. -/
def GetVersion_Powerpoint (version : Nat) : Bytes :=
  if version = 0 then b!"Non-Office"
  else ((pptVersions.find? fun e => withinCheck version e.1 10).map (·.2)).getD b!"Unknown"

/-- document/powerpoint/ppt.hpp:184-187 `Detailer`. -/
def pptDetailer (abi : Abi) (e : ExtInfo) (currentUser stream : Bytes) : Res ExtInfo := do
  let v ← GetPptVersion abi currentUser stream
  .ok { e with Version := v, VersionName := GetVersion_Powerpoint v }

/-- `std::string::find(pat) != npos`. -/
def contains (pat : Bytes) : Bytes → Bool
  | [] => pat.isEmpty
  | c :: cs => pat.isPrefixOf (c :: cs) || contains pat cs

/-- document/msi/msi.hpp:8-19 `Detailer`. -/
def msiDetailer (e : ExtInfo) (stream : Bytes) : ExtInfo :=
  if contains b!"ModuleAdminExecuteSequence" stream then
    { e with Extension := b!"msm", Name := b!"Microsoft Installer Merge File" }
  else if contains b!"InstallExecuteSequence" stream then e
  else if contains b!"MsiPatchSequence" stream then
    { e with Extension := b!"msp", Name := b!"Microsoft Installer Patch File" }
  else e

end Fileid.Office
