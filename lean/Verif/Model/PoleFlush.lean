import Verif.Model.PoleDelete

/-!
# Model of `StorageIO::flush` and what it calls (`fileid/oless/pole.h`)

Line numbers are those of `fileid/oless/pole.h`. The buffers of the allocation tables and of the meta blocks are larger than
what is stored in them; the rest is uninitialised memory that goes into the file. What it holds is the parameter `junk`: byte
`i` of buffer `k` is `junk k i`.
-/

namespace Fileid.Pole

/-- A new array of `n` bytes that nobody initialised, whose bytes happen to be those of `junk`. -/
def junkMem (junk : Nat → UInt8) (n : Nat) : Mem := (List.range n).map fun i => some (junk i)

/-- pole.h:859-872, the loop of `AllocTable::flush`: block size, changed blocks, buffer, the blocks from number `idx` on,
file. -/
def flushTableLoop (bs : Nat) (dirty : List Nat) (buffer : Mem) : List Nat → Nat → Bytes → Res Bytes
  | [], _, file => .ok file
  | block :: rest, idx, file =>
    if idx ∈ dirty then do
      let data ← readId buffer (bs * idx) bs
      flushTableLoop bs dirty buffer rest (idx + 1) (saveBigBlock file bs block 0 data)
    else flushTableLoop bs dirty buffer rest (idx + 1) file

/-- pole.h:855-875 `AllocTable::flush` without `dirtyBlocks.clear()`. -/
def AllocTable.flush (junk : Nat → UInt8) (t : AllocTable) (dirty : List Nat) (blocks : List Nat) (file : Bytes) (bs : Nat) :
    Res Bytes := do
  let buffer ← t.save (junkMem junk (bs * blocks.length))
  flushTableLoop bs dirty buffer blocks 0 file

/-- pole.h:1264-1265, the low bytes of the units of a name, at every second byte from `p` on. -/
def saveName (m : Mem) : Nat → WStr → Res Mem
  | _, [] => .ok m
  | p, c :: cs => do
    let m ← mwr m p [some (UInt8.ofNat c)]
    saveName m (p + 2) cs

/-- pole.h:1248-1252: a storage has neither a start nor a size. -/
def DirEntry.tidied (e : DirEntry) : DirEntry := if e.dir then { e with start := 0xffffffff, size := 0 } else e

/-- pole.h:1254-1279, entry `e` at offset `p`; `e` is tidied. -/
def saveEntry (m : Mem) (p : Nat) (e : DirEntry) : Res Mem := do
  let name := e.name.take 32
  let m ← saveName m p name
  let m ← writeU16 m (p + 0x40) (name.length * 2 + 2)
  let m ← writeU32 m (p + 0x74) (u32 e.start)
  let m ← writeU32 m (p + 0x78) (u32 e.size)
  let m ← writeU32 m (p + 0x44) (u32 e.prev)
  let m ← writeU32 m (p + 0x48) (u32 e.next)
  let m ← writeU32 m (p + 0x4c) (u32 e.child)
  let m ← mwr m (p + 0x42) [some (if e.valid then (if e.dir then 1 else 2) else 0)]
  mwr m (p + 0x43) [some 1]

/-- pole.h:1246-1280, the entries but the root, from offset `p` on. -/
def saveEntries (m : Mem) : Nat → DirTree → Res Mem
  | _, [] => .ok m
  | p, e :: es => do
    let m ← saveEntry m p e
    saveEntries m (p + 128) es

/-- pole.h:1237-1244, the root, whose entry is `root`. -/
def saveRoot (m : Mem) (root : DirEntry) : Res Mem := do
  let m ← saveName m 0 (b!"Root Entry".map UInt8.toNat)
  let m ← writeU16 m 0x40 22
  let m ← writeU32 m 0x74 0xffffffff
  let m ← writeU32 m 0x78 0
  let m ← writeU32 m 0x44 0xffffffff
  let m ← writeU32 m 0x48 0xffffffff
  let m ← writeU32 m 0x4c (u32 root.child)
  mwr m 0x42 [some 5]

/-- pole.h:1233-1281 `DirTree::save` into a buffer of `size()` bytes: the directory afterwards, and the buffer. -/
def saveTree (t : DirTree) : Res (DirTree × Mem) :=
  match t with
  | [] => .ub .nullDeref
  | root :: es => do
    let es := es.map DirEntry.tidied
    let m ← mwr (newMem (t.length * 128)) 0 (List.replicate (t.length * 128) (some 0))
    let m ← saveRoot m root
    let m ← saveEntries m 128 es
    .ok (root :: es, m)

/-- pole.h:1308-1325, the loop of `DirTree::flush`. -/
def flushTreeLoop (bs : Nat) (dirty : List Nat) (buffer : Mem) : List Nat → Nat → Bytes → Res Bytes
  | [], _, file => .ok file
  | block :: rest, idx, file =>
    let pos := bs * idx
    let n := if sub64 buffer.length pos < bs then sub64 buffer.length pos else bs
    if idx ∈ dirty then do
      let data ← readId buffer pos n
      flushTreeLoop bs dirty buffer rest (idx + 1) (saveBigBlock file bs block 0 data)
    else flushTreeLoop bs dirty buffer rest (idx + 1) file

/-- pole.h:1301-1328 `DirTree::flush` without `dirtyBlocks.clear()`. -/
def flushTree (t : DirTree) (dirty : List Nat) (blocks : List Nat) (file : Bytes) (bs sb_start sb_size : Nat) :
    Res (DirTree × Bytes) := do
  let (t, buffer) ← saveTree t
  let buffer ← writeU32 buffer 0x74 (u32 sb_start)
  let buffer ← writeU32 buffer 0x78 (u32 sb_size)
  let file ← flushTreeLoop bs dirty buffer blocks 0 file
  .ok (t, file)

/-- pole.h:2033-2045 and 2087-2095 `getbbatBlocks(false)`: `mbat_data` is as long as `num_bat - 109` or empty. -/
def Writer.bbatBlocks (w : Writer) : List Nat := w.io.header.bb_blocks.take w.io.header.num_bat ++ w.mbat_data

/-- pole.h:1709-1712, the word behind the last block of a meta block. -/
def metaNext (mbat_blocks : List Nat) (blockIdx : Nat) : Res Nat :=
  if blockIdx = mbat_blocks.length then .ok Eof
  else match mbat_blocks[blockIdx]? with
    | some b => .ok (u32 b)
    | none => .ub .oobRead

/-- pole.h:1700-1716, the words of the meta blocks: blocks of the table, and after `capacity` of them the next meta block. -/
def metaFill (m : Mem) (capacity : Nat) (mbat_blocks : List Nat) : Nat → Nat → Nat → List Nat → Res Mem
  | _, _, _, [] => .ok m
  | sIdx, dcount, blockIdx, d :: ds => do
    let m ← writeU32 m sIdx (u32 d)
    if dcount + 1 = capacity then do
      let next ← metaNext mbat_blocks (blockIdx + 1)
      let m ← writeU32 m (sIdx + 4) next
      metaFill m capacity mbat_blocks (sIdx + 8) 0 (blockIdx + 1) ds
    else metaFill m capacity mbat_blocks (sIdx + 4) (dcount + 1) blockIdx ds

/-- pole.h:1669-1680, the header. -/
def Writer.flushHeader (w : Writer) : Res Writer :=
  if w.headerDirty then do
    let m ← w.io.header.save (newMem 512)
    let data ← readId m 0 512
    .ok { w with headerDirty := false, io := { w.io with file := putAt w.io.file 0 data } }
  else .ok w

/-- pole.h:1681-1682 and 2019-2024 `flushbbat`. -/
def Writer.flushBig (junk : Nat → UInt8) (w : Writer) : Res Writer :=
  if w.bbatDirty ≠ [] then do
    let file ← w.io.bbat.flush junk w.bbatDirty w.bbatBlocks w.io.file w.io.bbat.blockSize
    .ok { w with bbatDirty := [], io := { w.io with file } }
  else .ok w

/-- pole.h:1683-1684 and 2026-2031 `flushsbat`. -/
def Writer.flushSmall (junk : Nat → UInt8) (w : Writer) : Res Writer :=
  if w.sbatDirty ≠ [] then do
    let blocks ← w.io.bbat.follow w.io.header.sbat_start
    let file ← w.io.sbat.flush junk w.sbatDirty blocks w.io.file w.io.bbat.blockSize
    .ok { w with sbatDirty := [], io := { w.io with file } }
  else .ok w

/-- pole.h:1685-1693, the directory. -/
def Writer.flushDir (w : Writer) : Res Writer :=
  if w.dirDirty ≠ [] then do
    let blocks ← w.io.bbat.follow w.io.header.dirent_start
    let sb_start := (w.io.sb_blocks.head?).getD 0xffffffff
    let (dirtree, file) ← flushTree w.io.dirtree w.dirDirty blocks w.io.file w.io.bbat.blockSize sb_start
      (w.io.sb_blocks.length * w.io.bbat.blockSize)
    .ok { w with dirDirty := [], io := { w.io with file, dirtree } }
  else .ok w

/-- pole.h:1694-1720, the meta blocks. -/
def Writer.flushMeta (junk : Nat → UInt8) (w : Writer) : Res Writer :=
  if w.mbatDirty = true ∧ w.mbat_blocks.length > 0 then do
    let bs := w.io.bbat.blockSize
    let n := bs * w.mbat_blocks.length
    let m ← metaFill (junkMem junk n) (bs / 8 - 1) w.mbat_blocks 0 0 0 w.mbat_data
    let data ← readId m 0 n
    .ok { w with mbatDirty := false, io := { w.io with file := saveLoop w.io.file bs w.mbat_blocks 0 data } }
  else .ok w

/-- pole.h:1669-1730 `StorageIO::flush`. -/
def Writer.flush (junk : Nat → Nat → UInt8) (w : Writer) : Res Writer := do
  let w ← w.flushHeader
  let w ← w.flushBig (junk 0)
  let w ← w.flushSmall (junk 1)
  let w ← w.flushDir
  w.flushMeta (junk 2)

/-- pole.h:2058-2081, the sectors of the meta blocks (`mbat_blocks`) in the loop of `metaLoop`. -/
def metaSectors (file : Bytes) (bs num_bat mbat_start : Nat) : Nat → Bool → Mem → List Nat → List Nat → Res (List Nat)
  | 0, _, _, _, sectors => .ok sectors
  | n + 1, first, m, blocks, sectors => do
    let sector := if first then mbat_start else (blocks.getLast?).getD 0
    let blocks := if first then blocks else blocks.dropLast
    let m ← loadBigBlock file bs sector m bs
    let blocks ← metaWords m num_bat 0 (bs / 4) blocks
    metaSectors file bs num_bat mbat_start n false m blocks (sectors ++ [sector])

/-- pole.h:2050-2084, the members for the meta blocks after loading: `mbat_blocks`, and `mbat_data`, which holds the blocks of the table
behind the first 109 (`mdidx` is `k - 109`). -/
def metaMembers (io : StorageIO) : List Nat × List Nat :=
  let h := io.header
  let bs := io.bbat.blockSize
  if h.num_bat > 109 ∧ h.num_mbat > 0 then
    match metaSectors io.file bs h.num_bat h.mbat_start h.num_mbat true (newMem bs) (h.bb_blocks.take h.num_bat) [],
      metaLoop io.file bs h.num_bat h.mbat_start h.num_mbat true (newMem bs) (h.bb_blocks.take h.num_bat) with
    | .ok sectors, .ok blocks => (sectors, blocks.drop 109)
    | _, _ => ([], [])
  else ([], [])

/-- pole.h:1508-1526 `open(true, false)`: a storage with the contents of the file, that can be changed; it was loaded with
1528-1616. -/
def reopened (io : StorageIO) : Writer :=
  { io, writeable := true, mbat_blocks := (metaMembers io).1, mbat_data := (metaMembers io).2 }

end Fileid.Pole
