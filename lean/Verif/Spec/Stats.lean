import Verif.Spec.Cfb

/-!
# What the statistics about a compound file should be
-/

namespace Fileid.Spec

/-- The number of sectors that a FAT or mini FAT marks as free (MS-CFB 2.1, FREESECT). -/
def freeSectors (fat : List Nat) : Nat := fat.countP (· == 0xffffffff)

/-- The number of slots of a directory with type 0 (MS-CFB 2.6.1, "unknown or unallocated"): a slot has 128 bytes, its type is byte 0x42. -/
def freeSlots (dir : Bytes) : Nat := (List.range (dir.length / 128)).countP fun i => dir[128 * i + 0x42]? == some 0

/-- Every slot of the directory has one of the types of MS-CFB 2.6.1, and a name if it is in use (the length of the name, in bytes with
its zero, is at 0x40). -/
def ProperSlots (dir : Bytes) : Prop := ∀ i, i < dir.length / 128 →
  dir[128 * i + 0x42]? = some 0 ∨ ((∃ t ∈ [1, 2, 5], dir[128 * i + 0x42]? = some t) ∧ ∃ n, 0 < n ∧ Num dir (128 * i + 0x40) 2 n)

end Fileid.Spec
