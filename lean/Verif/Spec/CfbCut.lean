import Verif.Spec.Cfb

/-!
# The sectors of a compound file that hold no contents of streams
-/

namespace Fileid.Spec

/-- Sector `s` belongs to the FAT, to the mini FAT or to the directory. -/
inductive TableSector (file : Bytes) (hd : CfbHeader) (fat : List Nat) (s : Nat) : Prop
  | fat {fs : List Nat} : FatSectors file hd fs → s ∈ fs → TableSector file hd fat s
  | miniFat {ms : List Nat} : Chain fat hd.miniFatStart ms → s ∈ ms → TableSector file hd fat s
  | directory {ds : List Nat} : Chain fat hd.dirStart ds → s ∈ ds → TableSector file hd fat s

end Fileid.Spec
