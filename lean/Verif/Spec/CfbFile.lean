import Verif.Spec.Paths
import Verif.Props.PoleOpen

/-!
# Compound files as maps from paths to streams

Whatever program wrote it, a compound file is described by its parts: header, tables, directory, and which sectors belong to what
(MS-CFB). `CfbFile file P f` says that `file` has the parts `P`, and that they show the map `f` from paths to streams.
-/

namespace Fileid.Spec

open Pole Props

/-- The parts of a compound file: the header, the FAT, the mini FAT, the bytes and the entries of the directory, the children of each
entry, whose sectors are where, and the contents of the streams. -/
structure CfbParts where
  hd : CfbHeader
  fat : List Nat
  minifat : List Nat
  dir : Bytes
  entries : DirTree
  kids : Nat → List Nat
  layout : Layout
  contents : Contents

/-- The entry is the one stored at the offset. Names have no unit whose low byte is zero (see C45) and end with a zero that is counted. -/
structure EntryStored (dir : Bytes) (off : Nat) (e : DirEntry) : Prop where
  fields : EntryAt dir off e
  name : e.valid = true → UnitsAt dir off e.name ∧ (∀ u ∈ e.name, u % 256 ≠ 0) ∧ e.name.length < 32 ∧
    Num dir (off + 2 * e.name.length) 2 0 ∧ Num dir (off + 0x40) 2 (2 * (e.name.length + 1))

/-- Where byte `p` of stream `i` of `size` bytes is in the file. -/
def CfbParts.place (P : CfbParts) (i size p : Nat) : Option Nat :=
  if size < 4096 then smallPlace (2 ^ P.hd.shift) (2 ^ P.hd.miniShift) (P.layout.big .mini) (P.layout.small i) p
  else bigPlace (2 ^ P.hd.shift) (P.layout.big (.stream i)) p

/-- The file has these parts, and shows the map `f`: chains are apart, every stream has the chain its entry begins, the directory is a
tree of names in the order the library expects (see C71), and every byte that `f` gives is where the chains say. -/
structure CfbFile (file : Bytes) (P : CfbParts) (f : FileMap) : Prop where
  image : CfbImage file P.hd P.fat P.minifat P.dir (P.layout.big .mini)
  minifatSize : P.minifat.length ≤ 0xfffffffc
  count : P.entries.length = P.dir.length / 128
  entries : ∀ i e, P.entries[i]? = some e → EntryStored P.dir (128 * i) e
  shape : Shape Abi.windows P.entries P.kids
  shows : Shows P.entries P.kids P.contents f
  big : Owned P.fat P.layout.big
  small : Owned P.minifat P.layout.small
  miniFat : Begins P.hd.miniFatStart (P.layout.big .miniFat)
  directory : Begins P.hd.dirStart (P.layout.big .dir)
  inMini : ∀ i, ∀ x ∈ P.layout.small i, x * 2 ^ P.hd.miniShift / 2 ^ P.hd.shift < (P.layout.big .mini).length
  streams : ∀ i e, P.entries[i]? = some e → IsStream e → e.size = P.contents.size i ∧
    (if e.size < 4096 then Begins e.start (P.layout.small i) ∧ P.layout.big (.stream i) = []
     else Begins e.start (P.layout.big (.stream i)) ∧ P.layout.small i = [])
  others : ∀ i, (∀ e, P.entries[i]? = some e → ¬ IsStream e) → P.layout.small i = [] ∧ P.layout.big (.stream i) = []
  bytes : ∀ i p v, P.contents.byte i p = some v → p < P.contents.size i ∧ ∃ e a, P.entries[i]? = some e ∧ IsStream e ∧
    P.place i e.size p = some a ∧ file[a]? = some v

/-- The file is as the library writes them: sectors of 512 and mini sectors of 64 bytes, no further FAT sectors; the mini FAT has sectors, and
the header counts them; the sectors of the FAT are marked as used, and nobody else's. Names are of units of one byte, and filled up with
zeros; the root is called "Root Entry" and has no siblings, and all other entries are streams, storages or not in use. -/
structure CfbParts.Editable (file : Bytes) (P : CfbParts) : Prop where
  sizes : P.hd.shift = 9 ∧ P.hd.miniShift = 6
  few : P.hd.fatCount ≤ 109 ∧ P.hd.difatCount = 0
  noDifat : P.hd.difatStart = 0xfffffffe
  miniFatCount : Num file 0x40 4 (P.layout.big .miniFat).length
  hasMiniFat : P.layout.big .miniFat ≠ []
  fatNodup : (P.hd.difat.take P.hd.fatCount).Nodup
  fatUsed : ∀ b ∈ P.hd.difat.take P.hd.fatCount, (∃ v, P.fat[b]? = some v ∧ v ≠ 0xffffffff) ∧ ∀ o, b ∉ P.layout.big o
  names : ∀ i e, P.entries[i]? = some e → e.valid = true → (∀ u ∈ e.name, u < 256) ∧
    ∀ k, 2 * e.name.length ≤ k → k < 64 → P.dir[128 * i + k]? = some 0
  root : ∃ r, P.entries[0]? = some r ∧ r.name = b!"Root Entry".map UInt8.toNat ∧ r.prev = 0xffffffff ∧ r.next = 0xffffffff ∧
    P.dir[0x42]? = some 5 ∧ Begins r.start (P.layout.big .mini)
  kinds : ∀ i e, 0 < i → P.entries[i]? = some e → e.valid = true → P.dir[128 * i + 0x42]? ≠ some 5
  unused : ∀ i e, P.entries[i]? = some e → e.valid = false → P.dir[128 * i + 0x42]? = some 0

/-- The FAT in the file marks the sectors of the FAT as used: word `b` of the FAT is in its sector `b / 128`. -/
def FatMarked (w : Writer) (file : Bytes) : Prop :=
  ∀ b ∈ w.io.header.bb_blocks.take w.io.header.num_bat, ∀ s, (w.io.header.bb_blocks.take w.io.header.num_bat)[b / 128]? = some s →
    ¬ Num file (512 * (s + 1) + 4 * (b % 128)) 4 0xffffffff

/-- Names leave room for the zero that ends them: in a file the name of an entry has 64 bytes. -/
def ShortNames (t : DirTree) : Prop := ∀ e ∈ t, e.valid = true → e.name.length < 32

/-- What is known when a file is opened: nothing is open yet. -/
def PathView.of (f : FileMap) : PathView := ⟨f, fun _ => none, fun _ => 0, 0⟩

end Fileid.Spec
