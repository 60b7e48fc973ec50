import Verif.Model.Common
import Verif.Model.Tables

/-!
# Model of `fileid/exe/Exec.hpp` and `fileid/exe/macho.hpp`
-/

namespace Fileid.Exec

open Common Tables

/-- `n` bytes of a structure copied from memory, read as a little-endian unsigned field at `off`. -/
def field (s : Bytes) (off n : Nat) : Nat := leVal ((s.drop off).take n)

/-- exe/Exec.hpp:11-28 `ExecExtensionInfo`: the base members and the additional ones. Its `ToJson`, `ToXml`,
`ToText` and `ToCsv` (29-77) lack `const`, so they do not override the base class's, and the program prints
the base class's texts. -/
structure ExecInfo where
  base : ExtInfo := { Extension := b!"exe", VersionName := b!"Executable" }
  MachineType : Bytes := []
  Subsystem : Bytes := []
  LinkerVersion : Bytes := []
  OsVersion : Bytes := []
  ImageVersion : Bytes := []
  SubsystemVersion : Bytes := []
  Win32Version : Nat := 0
  Characteristics : List Bytes := []
  DllCharacteristics : List Bytes := []
  deriving DecidableEq, Repr

/-- exe/Exec.hpp:80-100 `sizeof(IMAGE_DOS_HEADER)`; `NewExeAddress` is at offset 60. -/
def sizeofDos : Nat := 64
/-- exe/Exec.hpp:103-112 `sizeof(COFF_FILE_HEADER)`: `Machine` at 4, `Characteristics` at 22. -/
def sizeofCoff : Nat := 24
/-- exe/Exec.hpp:142-172 `sizeof(OPTIONAL_HEADER)`. The union holds an `unsigned long`: its size is 8 on
both platforms, but where `unsigned long` has 8 bytes the structure (76 bytes of members) is padded to a
multiple of 8. -/
def sizeofOpt (abi : Abi) : Nat := if abi.ulongBytes = 8 then 80 else 76

/-- exe/Exec.hpp:174-190 `GetSubsystemString`. -/
def GetSubsystemString (subsystem : Nat) : Bytes := (lookup execSubsystems subsystem).getD []
/-- exe/Exec.hpp:192-219 `GetMachineTypeString`. -/
def GetMachineTypeString (machineType : Nat) : Bytes := (lookup execMachines machineType).getD []

/-- exe/Exec.hpp:221-228 `BuildVectorFromMap`: loop in key order. -/
def BuildVectorFromMap (map : List (Nat × Bytes)) (key : Nat) : List Bytes :=
  map.foldl (fun ans e => if e.1 &&& key ≠ 0 then ans ++ [e.2] else ans) []

/-- exe/Exec.hpp:233-239 `BuildVersionString`. -/
def BuildVersionString (major minor : Nat) : Bytes := dec major ++ b!"." ++ dec minor

/-- exe/Exec.hpp:271-285, the part of `Detailer` that reads the optional header `opt`. -/
def applyOptional (info : ExecInfo) (opt : Bytes) : ExecInfo :=
  { info with
    Subsystem := GetSubsystemString (field opt 68 4)
    LinkerVersion := BuildVersionString (field opt 2 1) (field opt 3 1)
    OsVersion := BuildVersionString (field opt 40 2) (field opt 42 2)
    ImageVersion := BuildVersionString (field opt 44 2) (field opt 46 2)
    SubsystemVersion := BuildVersionString (field opt 48 2) (field opt 50 2)
    Win32Version := field opt 52 4
    DllCharacteristics := BuildVectorFromMap execDllCharacteristics (field opt 72 4) }

/-- exe/Exec.hpp:257-268, the part of `Detailer` that reads the COFF header `coff`. -/
def applyCoff (info : ExecInfo) (coff : Bytes) : ExecInfo :=
  let ch := field coff 22 2
  let info := { info with
    MachineType := GetMachineTypeString (field coff 4 2)
    Characteristics := BuildVectorFromMap execCharacteristics ch }
  let info := if ch &&& 0x2000 ≠ 0 then
    { info with base := { info.base with Extension := b!"dll", VersionName := b!"Dynamic Link Library" } }
    else info
  if ch &&& 0x1000 ≠ 0 then
    { info with base := { info.base with Extension := b!"sys", VersionName := b!"Kernal Mode Executable" } }
    else info

/-- exe/Exec.hpp:258-290, the part of `Detailer` after the second read; the sums are `size_t`. `memcpy` from
a vector that is too short is undefined. -/
def inspect (abi : Abi) (peHeaderStart : Nat) (buf2 : Bytes) : Res ExecInfo :=
  if peHeaderStart + sizeofCoff < buf2.length then do
    let coffHeader ← rdRange buf2 peHeaderStart sizeofCoff
    if peHeaderStart + sizeofCoff + sizeofOpt abi < buf2.length then do
      let optHeader ← rdRange buf2 (peHeaderStart + sizeofCoff) (sizeofOpt abi)
      .ok (applyOptional (applyCoff {} coffHeader) optHeader)
    else .ok (applyCoff {} coffHeader)
  else .ok {}

/-- exe/Exec.hpp:241-295 `Detailer`. `totalSizeNeeded` is an `unsigned int`. -/
def DetailerInfo (abi : Abi) (file : File) : Res ExecInfo := do
  let buf2 := readFile file 2048
  let dosHeader ← rdRange buf2 0 sizeofDos
  let peHeaderStart := field dosHeader 60 4
  let totalSizeNeeded := u32 (peHeaderStart + sizeofCoff + sizeofOpt abi)
  inspect abi peHeaderStart (if buf2.length < totalSizeNeeded then readFile file totalSizeNeeded else buf2)

/-- exe/Exec.hpp:241-295 `Detailer`, as a list of items. -/
def Detailer (abi : Abi) (file : File) : Res (List Item) := do
  let info ← DetailerInfo abi file
  .ok [Item.generic info.base]

end Fileid.Exec

namespace Fileid.Exec.MachO

open Common Tables

/-- exe/macho.hpp:10-23 `MachOExtensionInfo`. -/
structure MachOInfo where
  base : ExtInfo := { Extension := b!"o" }
  CpuType : Bytes := []
  CpuSubType : Bytes := []
  FileType : Bytes := []
  NumberLoadCommands : Nat := 0
  SizeLoadCommands : Nat := 0
  Flags : Bytes := []
  deriving DecidableEq, Repr

/-- exe/macho.hpp:24-38 `ToJson`. -/
def MachOInfo.toJson (i : MachOInfo) : Bytes :=
  b!"{" ++ b!"\"extension\" : \"" ++ i.base.Extension ++ b!"\"" ++
  b!", \"name\" : \"" ++ i.base.VersionName ++ b!"\"" ++
  (if i.CpuType.length > 0 then b!", \"CpuType\" : \"" ++ i.CpuType ++ b!"\"" else []) ++
  (if i.CpuSubType.length > 0 then b!", \"CpuSubType\" : \"" ++ i.CpuSubType ++ b!"\"" else []) ++
  (if i.FileType.length > 0 then b!", \"FileType\" : \"" ++ i.FileType ++ b!"\"" else []) ++
  b!", \"NumberLoadCommands\" : \"" ++ dec i.NumberLoadCommands ++ b!"\"" ++
  b!", \"SizeLoadCommands\" : \"" ++ dec i.SizeLoadCommands ++ b!"\"" ++
  (if i.Flags.length > 0 then b!", \"Flags\" : \"" ++ i.Flags ++ b!"\"" else []) ++ b!"}"

/-- exe/macho.hpp:39-51 `ToXml`. -/
def MachOInfo.toXml (i : MachOInfo) : Bytes :=
  b!"<item>" ++ i.base.buildBaseXml ++
  (if i.CpuType.length > 0 then b!"<CpuType>" ++ i.CpuType ++ b!"</CpuType>" else []) ++
  (if i.CpuSubType.length > 0 then b!"<CpuSubType>" ++ i.CpuSubType ++ b!"</CpuSubType>" else []) ++
  (if i.FileType.length > 0 then b!"<FileType>" ++ i.FileType ++ b!"</FileType>" else []) ++
  b!"<NumberLoadCommands>" ++ dec i.NumberLoadCommands ++ b!"</NumberLoadCommands>" ++
  b!"<SizeLoadCommands>" ++ dec i.SizeLoadCommands ++ b!"</SizeLoadCommands>" ++
  (if i.Flags.length > 0 then b!"<Flags>" ++ i.Flags ++ b!"</Flags>" else []) ++ b!"</item>"

/-- exe/macho.hpp:52-57 `ToText`. -/
def MachOInfo.toText (i : MachOInfo) : Bytes := i.base.Extension ++ b!"\t" ++ i.base.VersionName
/-- exe/macho.hpp:58-63 `ToCsv`. -/
def MachOInfo.toCsv (i : MachOInfo) : Bytes := i.base.Extension ++ b!"," ++ i.base.VersionName

/-- exe/macho.hpp:10-64, the object as the rest of the program sees it. -/
def MachOInfo.item (i : MachOInfo) : Item := ⟨i.base, i.toJson, i.toXml, i.toText, i.toCsv⟩

/-- exe/macho.hpp:76-103 `cpuType2String`. -/
def cpuType2String (cputype : Nat) : Bytes := (lookup machoCpuTypes cputype).getD []

/-- exe/macho.hpp:106-274, the outer switch of `cpuSubType2String`. -/
def subTable (cputype : Nat) : List (Nat × Bytes) :=
  match cputype with
  | 1 => machoSubVAX
  | 2 => machoSubROMP
  | 4 => machoSubNS32
  | 5 => machoSubNS32
  | 9 => machoSubNS32
  | 6 => machoSubMC680
  | 7 => machoSubI386
  | 8 => machoSubMIPS
  | 11 => machoSubHPPA
  | 12 => machoSubARM
  | 14 => machoSubSPARC
  | 15 => machoSubI860
  | 18 => machoSubPOWERPC
  | 16777223 => machoSubX8664
  | _ => []

/-- exe/macho.hpp:104-281 `cpuSubType2String` (no table entry is the text `UNKNOWN`). -/
def cpuSubType2String (cputype cpusubtype : Nat) : Bytes :=
  match lookup (subTable cputype) cpusubtype with
  | some s => s
  | none => b!"UNKNOWN" ++ b!" (" ++ intToHex 4 cpusubtype ++ b!")"

/-- exe/macho.hpp:282-288 `filetype2String`: a switch without cases. -/
def filetype2String (_filetype : Nat) : Bytes := []
/-- exe/macho.hpp:289-292 `flags2String`. -/
def flags2String (_flags : Nat) : Bytes := []

/-- exe/macho.hpp:294-315 `Detailer`; the header structure has 28 bytes, `Version` is an
`unsigned short`. -/
def DetailerInfo (file : File) : Res MachOInfo := do
  let buf2 := readFile file 2048
  let header ← rdRange buf2 0 28
  let magic := field header 0 4
  .ok {
    base := { Extension := b!"o", VersionName := intToHex 4 magic, Version := u16 magic }
    CpuType := cpuType2String (field header 4 4)
    CpuSubType := cpuSubType2String (field header 4 4) (field header 8 4)
    FileType := filetype2String (field header 12 4)
    NumberLoadCommands := field header 16 4
    SizeLoadCommands := field header 20 4
    Flags := flags2String (field header 24 4) }

/-- exe/macho.hpp:294-315 `Detailer`, as a list of items. -/
def Detailer (file : File) : Res (List Item) := do
  let info ← DetailerInfo file
  .ok [info.item]

end Fileid.Exec.MachO
