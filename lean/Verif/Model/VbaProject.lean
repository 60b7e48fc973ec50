import Verif.Model.Pole
import Verif.Model.Vba

/-!
# Model of `fileid/oless/vbahelper.hpp`, the project information

`vbahelper::Analyze`, what it makes of the decompressed stream "dir", and how the result is printed. The
decompression itself is in `Verif.Model.Vba`.
-/

namespace Fileid.Vba

open Common Pole

/-- A wide string literal of ASCII characters. -/
def wide (s : Bytes) : WStr := s.map UInt8.toNat

/-- The bytes of initialised memory. (Simplification: copying an indeterminate byte already counts as using
it.) -/
def memBytes : Mem → Res Bytes
  | [] => .ok []
  | none :: _ => .ub .uninit
  | some b :: rest => do
    let bs ← memBytes rest
    .ok (b :: bs)

/-- vbahelper.hpp:115-124 `ProjectModule`. -/
structure Module where
  Name : Bytes := []
  StreamName : Bytes := []
  StreamNamePole : Bytes := []
  StreamNameW : WStr := []
  Offset : Nat := 0
  Code : Bytes := []
  isPrivate : Bool := false
  isReadOnly : Bool := false
  deriving DecidableEq, Repr

/-- vbahelper.hpp:127-139 `VbaExtensionInfo` and its constructor. -/
structure VbaInfo where
  base : ExtInfo := { Extension := b!"vba", Name := b!"Visual Basic for Applications" }
  ProjectName : Bytes := []
  References : List Bytes := []
  Modules : List Module := []
  VBAVersionMajor : Nat := 0
  VBAVersionMinor : Nat := 0
  deriving DecidableEq, Repr

/-- vbahelper.hpp:269-282 `FetchStream`. The bytes behind the number returned are not initialised; they are left
out here, so reading one of them is a read outside the buffer. (Simplification: memory never runs out.) -/
def FetchStream (abi : Abi) (io : StorageIO) (name : WStr) (offset : Nat) : Res Bytes := do
  let s ← io.streamIO abi name
  let len := u32 (sub64 (streamSize s) offset)
  let r ← streamRead io s offset (newMem len) len
  memBytes (r.2.take r.1)

/-- vbahelper.hpp:284-297 `FetchAndDecompress`: the length and the buffer; a null pointer is a buffer of no
bytes. -/
def FetchAndDecompress (abi : Abi) (io : StorageIO) (name : WStr) (offset : Nat) : Res (Nat × Bytes) := do
  let compressed ← FetchStream abi io name offset
  let r ← Decompress compressed.length compressed
  .ok (r.1, r.2.getD [])

/-- vbahelper.hpp:299-304 `ReadString`: a length of four bytes and that many bytes; the index behind them. -/
def readStr (buffer : Bytes) (len start : Nat) : Res (Nat × Bytes) := do
  let n ← ReadUInt buffer len start true
  let s ← Common.ReadString buffer len (u32 (start + 4)) n
  .ok (u32 (start + n + 4), s)

/-- vbahelper.hpp:314-316, every second byte from `i` on. -/
def narrow (buffer : Bytes) (i : Nat) : Nat → Res Bytes
  | 0 => .ok []
  | n + 1 => do
    let b ← rd buffer i
    let bs ← narrow buffer (i + 2) n
    .ok (b :: bs)

/-- vbahelper.hpp:307-323 `ReadStringW`: the index behind, every second byte, the wide characters.
(Simplification: the alignment of the wide characters is ignored.) -/
def readStrW (abi : Abi) (buffer : Bytes) (len start : Nat) : Res (Nat × Bytes × WStr) := do
  let n ← ReadUInt buffer len start true
  let stop := u32 (start + 4 + n)
  if stop > len then .throw .runtimeError
  else do
    let first := u32 (start + 4)
    let str ← narrow buffer first ((stop - first + 1) / 2)
    let bs ← rdRange buffer first (n / abi.wcharBytes * abi.wcharBytes)
    .ok (u32 (start + n + 4), str, units abi.wcharBytes (n / abi.wcharBytes) bs)

/-- vbahelper.hpp:325-330 `GetCode`. -/
def GetCode (abi : Abi) (io : StorageIO) (name : WStr) (offset : Nat) : Res Bytes := do
  let r ← FetchAndDecompress abi io name offset
  Common.ReadString r.2 r.1 0 r.1

/-- vbahelper.hpp:377-404, the `switch` on the type of the record behind the names of a reference: the index behind
it. -/
def referenceRecord (buffer : Bytes) (len type index : Nat) : Res Nat :=
  if type = 0x33 then do
    let r ← readStr buffer len index
    .ok r.1
  else if type = 0x2f then do
    let r ← readStr buffer len (u32 (index + 4))
    let r ← readStr buffer len (u32 (u32 (r.1 + 6) + 2))
    let r ← readStr buffer len (u32 (r.1 + 2))
    let r ← readStr buffer len (u32 (u32 (r.1 + 6) + 2))
    .ok (u32 (r.1 + 26))
  else if type = 0x0d then do
    let r ← readStr buffer len (u32 (index + 4))
    .ok (u32 (r.1 + 6))
  else if type = 0x0e then do
    let r ← readStr buffer len (u32 (index + 4))
    let r ← readStr buffer len r.1
    .ok (u32 (r.1 + 6))
  else .ok index

/-- vbahelper.hpp:370-405, the loop over the references; the first argument is the step budget. The index behind and
the names. -/
def referenceLoop (buffer : Bytes) (len : Nat) : Nat → Nat → List Bytes → Res (Nat × List Bytes)
  | 0, _, _ => .fuel
  | fuel + 1, index, refs => do
    let id ← ReadUShort buffer len index
    if id = 0x16 then do
      let r ← readStr buffer len (u32 (index + 2))
      let u ← readStr buffer len (u32 (r.1 + 2))
      let type ← ReadUShort buffer len (u32 (u.1 + 2))
      let index ← referenceRecord buffer len type (u32 (u.1 + 2))
      referenceLoop buffer len fuel index (refs ++ [r.2])
    else .ok (index, refs)

/-- vbahelper.hpp:422-466, the `switch` on a record of a module: the index behind it and the module. -/
def moduleRecord (abi : Abi) (buffer : Bytes) (len id index : Nat) (mod : Module) : Res (Nat × Module) :=
  if id = 0x19 then do
    let r ← readStr buffer len index
    .ok (r.1, { mod with Name := r.2 })
  else if id = 0x47 then do
    let r ← readStr buffer len index
    .ok (r.1, mod)
  else if id = 0x1A then do
    let r ← readStr buffer len index
    let w ← readStrW abi buffer len (u32 (r.1 + 2))
    .ok (w.1, { mod with StreamName := r.2, StreamNamePole := w.2.1, StreamNameW := w.2.2 })
  else if id = 0x1C then do
    let r ← readStr buffer len index
    let r ← readStr buffer len (u32 (r.1 + 2))
    .ok (r.1, mod)
  else if id = 0x31 then do
    let o ← ReadUInt buffer len (u32 (index + 4)) true
    .ok (u32 (u32 (index + 4) + 4), { mod with Offset := o })
  else if id = 0x1E then .ok (u32 (index + 8), mod)
  else if id = 0x2C then .ok (u32 (index + 6), mod)
  else if id = 0x21 ∨ id = 0x22 then .ok (u32 (index + 4), mod)
  else if id = 0x25 then .ok (u32 (index + 4), { mod with isReadOnly := true })
  else if id = 0x28 then .ok (u32 (index + 4), { mod with isPrivate := true })
  else .ok (index, mod)

/-- vbahelper.hpp:419-467, the loop over the records of a module; the first argument is the step budget. -/
def recordLoop (abi : Abi) (buffer : Bytes) (len : Nat) : Nat → Nat → Nat → Module → Res (Nat × Module)
  | 0, _, _, _ => .fuel
  | fuel + 1, id, index, mod =>
    if id ≠ 0x2B ∧ index < len then do
      let id ← ReadUShort buffer len index
      let r ← moduleRecord abi buffer len id (u32 (index + 2)) mod
      recordLoop abi buffer len fuel id r.1 r.2
    else .ok (index, mod)

/-- vbahelper.hpp:408-474, the loop over the modules; the first argument is the step budget, `code` fetches the
source text from a stream. -/
def moduleLoop (abi : Abi) (buffer : Bytes) (len : Nat) (code : WStr → Nat → Res Bytes) : Nat → Nat → List Module →
    Res (List Module)
  | 0, _, _ => .fuel
  | fuel + 1, index, mods =>
    if index < len then do
      let id ← ReadUShort buffer len index
      let r ← recordLoop abi buffer len (len + 1) id index {}
      if r.2.StreamName = [] then moduleLoop abi buffer len code fuel (u32 (r.1 + 4)) mods
      else do
        let c ← code r.2.StreamNameW r.2.Offset
        moduleLoop abi buffer len code fuel (u32 (r.1 + 4)) (mods ++ [{ r.2 with Code := c }])
    else .ok mods

/-- vbahelper.hpp:349-367 and 85-90, from the project name to the constants. `pVersion` points to a structure whose
members are aligned: `VersionMajor` is at offset 8 and `VersionMinor` at offset 12 of it. -/
def projectRecords (buffer : Bytes) (len : Nat) (info : VbaInfo) : Res (Nat × VbaInfo) := do
  let name ← readStr buffer len 40
  let r ← readStr buffer len (u32 (name.1 + 2))
  let r ← readStr buffer len (u32 (r.1 + 2))
  let r ← readStr buffer len (u32 (r.1 + 2))
  let r ← readStr buffer len (u32 (r.1 + 2))
  let index := u32 (u32 (r.1 + 10) + 10)
  let major ← rdRange buffer (index + 8) 4
  let minor ← rdRange buffer (index + 12) 2
  let r ← readStr buffer len (u32 (u32 (index + 12) + 2))
  let r ← readStr buffer len (u32 (r.1 + 2))
  .ok (r.1, { info with ProjectName := name.2, VBAVersionMajor := leVal major, VBAVersionMinor := leVal minor })

/-- vbahelper.hpp:347-475, what `Analyze` makes of the decompressed stream "dir". -/
def parseDir (abi : Abi) (buffer : Bytes) (len : Nat) (code : WStr → Nat → Res Bytes) (info : VbaInfo) :
    Res VbaInfo := do
  let p ← projectRecords buffer len info
  let r ← referenceLoop buffer len (len + 1) p.1 []
  let mods ← moduleLoop abi buffer len code (len + 1) (u32 (r.1 + 16)) []
  .ok { p.2 with References := r.2, Modules := mods }

/-- vbahelper.hpp:335-476 `Analyze`. -/
def Analyze (abi : Abi) (io : StorageIO) (fullname : WStr) : Res VbaInfo := do
  let s ← io.streamIO abi (fullname ++ wide b!"/VBA/_VBA_PROJECT")
  let h ← streamRead io s 0 (newMem 8) 8
  let version ← readU16 h.2 2
  let d ← FetchAndDecompress abi io (fullname ++ wide b!"/VBA/dir") 0
  let info : VbaInfo := {}
  parseDir abi d.2 d.1 (fun name offset => GetCode abi io (fullname ++ wide b!"/VBA/" ++ name) offset)
    { info with base := { info.base with Version := version } }

/-- vbahelper.hpp:159-168, a module in JSON. -/
def Module.toJson (m : Module) : Bytes :=
  b!"{\"Name\":\"" ++ JsonEscape m.Name ++ b!"\",\"StreamName\":\"" ++ JsonEscape m.StreamName ++
  b!"\",\"Offset\":" ++ dec m.Offset ++ b!",\"isPrivate\":" ++ (if m.isPrivate then b!"1" else b!"0") ++
  b!",\"isReadOnly\":" ++ (if m.isReadOnly then b!"1" else b!"0") ++ b!",\"Code\":\"" ++ JsonEscape m.Code ++ b!"\"}"

/-- vbahelper.hpp:140-174 `ToJson`. -/
def VbaInfo.toJson (v : VbaInfo) : Bytes :=
  b!"{" ++ v.base.buildBaseJson ++
  (if v.ProjectName.length > 0 then b!", \"projectname\":\"" ++ JsonEscape v.ProjectName ++ b!"\"" else []) ++
  (if v.VBAVersionMajor > 0 then b!", \"VBAVersionMajor\" : " ++ dec v.VBAVersionMajor else []) ++
  (if v.VBAVersionMinor > 0 then b!", \"VBAVersionMinor\" : " ++ dec v.VBAVersionMinor else []) ++
  (if v.References.length > 0 then b!", \"References\" : [" ++ vectorJoin v.References b!"," true ++ b!"]" else []) ++
  (if v.Modules.length > 0 then b!", \"Modules\" : [" ++ vectorJoin (v.Modules.map (·.toJson)) b!"," ++ b!"]" else []) ++
  b!"}"

/-- vbahelper.hpp:201-209, a module in XML. -/
def Module.toXml (m : Module) : Bytes :=
  b!"<Module><Name>" ++ XmlEscape m.Name ++ b!"</Name><StreamName>" ++ XmlEscape m.StreamName ++
  b!"</StreamName><Offset>" ++ dec m.Offset ++ b!"</Offset><isPrivate>" ++ (if m.isPrivate then b!"1" else b!"0") ++
  b!"</isPrivate><isReadOnly>" ++ (if m.isReadOnly then b!"1" else b!"0") ++ b!"</isReadOnly><Code><![CDATA[" ++
  m.Code ++ b!"]]></Code></Module>"

/-- vbahelper.hpp:175-216 `ToXml`. -/
def VbaInfo.toXml (v : VbaInfo) : Bytes :=
  b!"<item>" ++ v.base.buildBaseXml ++
  (if v.ProjectName.length > 0 then b!"<projectname>" ++ XmlEscape v.ProjectName ++ b!"</projectname>" else []) ++
  (if v.VBAVersionMajor > 0 then b!"<VBAVersionMajor>" ++ dec v.VBAVersionMajor ++ b!"</VBAVersionMajor>" else []) ++
  (if v.VBAVersionMinor > 0 then b!"<VBAVersionMinor>" ++ dec v.VBAVersionMinor ++ b!"</VBAVersionMinor>" else []) ++
  (if v.References.length > 0 then
    b!"<References>" ++ (v.References.map fun r => b!"<Reference>" ++ r ++ b!"</Reference>").flatten ++ b!"</References>"
   else []) ++
  (if v.Modules.length > 0 then b!"<Modules>" ++ vectorJoin (v.Modules.map (·.toXml)) b!"," ++ b!"</Modules>" else []) ++
  b!"</item>"

end Fileid.Vba
