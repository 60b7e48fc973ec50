import Verif.Spec.Paths

/-!
# What a storage must be like to be flushed and opened again
-/

namespace Fileid.Spec

open Pole

/-- The names and sizes can be stored: a name has at most 32 units, all of one byte and not zero if the entry is in
use, and a size has 32 bits. -/
def Storable (t : DirTree) : Prop := ∀ e ∈ t, e.name.length ≤ 32 ∧
  (e.valid = true → ∀ x ∈ e.name, 0 < x ∧ x < 256) ∧ e.size < 2 ^ 32

/-- The file reaches to the end of every sector that is read when the storage is opened: sector `b` ends at byte
`512 * (b + 2)`. Directory sectors hold four entries each; those behind the last entry are marked as not in use. -/
structure Reaches (w : Writer) (file : Bytes) : Prop where
  fat : ∀ b ∈ w.io.header.bb_blocks.take w.io.header.num_bat, 512 * (b + 2) ≤ file.length
  miniFat : ∀ l, Chain w.io.bbat.data w.io.header.sbat_start l → ∀ b ∈ l, 512 * (b + 2) ≤ file.length
  dir : ∀ l, Chain w.io.bbat.data w.io.header.dirent_start l → ∀ b ∈ l, 512 * (b + 2) ≤ file.length
  unused : ∀ l, Chain w.io.bbat.data w.io.header.dirent_start l → ∀ i b, w.io.dirtree.length ≤ i → l[i / 4]? = some b →
    file[512 * (b + 1) + (128 * (i % 4) + 0x42)]? = some 0

/-- The file ends before the end of a sector that is read when the storage is opened: one of the FAT, of the mini FAT, or of the
directory, whose last four bytes are not needed. -/
def EndsEarly (w : Writer) (file : Bytes) : Prop :=
  (∃ b ∈ w.io.header.bb_blocks.take w.io.header.num_bat, file.length < 512 * (b + 2)) ∨
  (∃ l, Chain w.io.bbat.data w.io.header.sbat_start l ∧ ∃ b ∈ l, file.length < 512 * (b + 2)) ∨
  ∃ l, Chain w.io.bbat.data w.io.header.dirent_start l ∧ ∃ b ∈ l, file.length + 4 < 512 * (b + 2)

end Fileid.Spec
