import Verif.Model.Pole

/-!
# Statistics about a storage (pole.h)
-/

namespace Fileid.Pole

/-- pole.h:943-952 `DirTree::unusedEntryCount`. -/
def unusedEntryCount (t : DirTree) : Nat := (t.filter fun e => !e.valid).length

/-- The six numbers that `GetStats` returns through its pointers. -/
structure Stats where
  entries : Nat
  unusedEntries : Nat
  bigBlocks : Nat
  unusedBigBlocks : Nat
  smallBlocks : Nat
  unusedSmallBlocks : Nat
  deriving DecidableEq, Repr

/-- pole.h:2505-2515 `Storage::GetStats`; `entryCount` (938-941) is the size of the directory. -/
def StorageIO.getStats (io : StorageIO) : Stats where
  entries := io.dirtree.length
  unusedEntries := unusedEntryCount io.dirtree
  bigBlocks := io.bbat.count
  unusedBigBlocks := io.bbat.unusedCount
  smallBlocks := io.sbat.count
  unusedSmallBlocks := io.sbat.unusedCount

end Fileid.Pole
