import Verif.Model.Pole

/-!
# Model of `fileid/oless/pole.h` (writing side)

Line numbers are those of `fileid/oless/pole.h`. The file behind a storage is a byte string; `seekp` behind its
end and `write` fill the gap with zeros. The member `filesize` is never smaller than what was written through it
and matters only for the number of bytes `loadBigBlocks` asks for, which is cut down by the end of the file in
any case; the model uses the length of the file. The data given to `write` is initialised. Files and streams
never fail.
-/

namespace Fileid.Pole

open Common

/-! ## The file -/

/-- `file.seekp(pos); file.write(bs, ..)`. -/
def putAt (file : Bytes) (pos : Nat) (bs : Bytes) : Bytes :=
  file.take pos ++ List.replicate (pos - file.length) 0 ++ bs ++ file.drop (pos + bs.length)

/-- pole.h:1881-1899, the loop of `saveBigBlocks`: file, block size, blocks, offset in the first block, the data not
yet written. -/
def saveLoop (file : Bytes) (bs : Nat) : List Nat → Nat → Bytes → Bytes
  | [], _, _ => file
  | block :: rest, offset, data =>
    if data.length > 0 then
      let pos := bs * (block + 1) + offset
      let n := if data.length > bs - offset then bs - offset else data.length
      saveLoop (putAt file pos (data.take n)) bs rest 0 (data.drop n)
    else file

/-- pole.h:1905-1915 `saveBigBlock`: `saveBigBlocks` (1872-1903) for one block. -/
def saveBigBlock (file : Bytes) (bs block offset : Nat) (data : Bytes) : Bytes :=
  saveLoop file bs [block] offset data

/-! ## The storage while it is changed -/

/-- pole.h:434-505 `StorageIO` with the members used for writing: the lists of changed blocks of the two tables
and of the directory (their members `dirtyBlocks`), `header->dirty`, and the blocks behind the first 109 of the
big table. -/
structure Writer where
  io : StorageIO
  writeable : Bool
  headerDirty : Bool := false
  bbatDirty : List Nat := []
  sbatDirty : List Nat := []
  dirDirty : List Nat := []
  mbat_blocks : List Nat := []
  mbat_data : List Nat := []
  mbatDirty : Bool := false
  deriving DecidableEq, Repr

/-- pole.h:844-853 and 1290-1299 `markAsDirty`: `unit` is the size of one item in a block. -/
def markDirty (dirty : List Nat) (unit dataIndex bs : Nat) : List Nat :=
  let d := dataIndex / (bs / unit)
  if d ∈ dirty then dirty else dirty ++ [d]

/-- pole.h:844 `bbat->markAsDirty(index, bbat->blockSize)`. -/
def Writer.markBig (w : Writer) (index : Nat) : Writer :=
  { w with bbatDirty := markDirty w.bbatDirty 4 index w.io.bbat.blockSize }

/-- pole.h:844 `sbat->markAsDirty(index, bbat->blockSize)`. -/
def Writer.markSmall (w : Writer) (index : Nat) : Writer :=
  { w with sbatDirty := markDirty w.sbatDirty 4 index w.io.bbat.blockSize }

/-- pole.h:1290 `dirtree->markAsDirty(index, bbat->blockSize)`. -/
def Writer.markDir (w : Writer) (index : Nat) : Writer :=
  { w with dirDirty := markDirty w.dirDirty 128 index w.io.bbat.blockSize }

/-- pole.h:762 `bbat->set(index, value)`. -/
def Writer.setBig (w : Writer) (index value : Nat) : Writer :=
  { w with io := { w.io with bbat := w.io.bbat.set index value } }

/-- pole.h:762 `sbat->set(index, value)`. -/
def Writer.setSmall (w : Writer) (index value : Nat) : Writer :=
  { w with io := { w.io with sbat := w.io.sbat.set index value } }

/-- pole.h:802 `bbat->unused()`. -/
def Writer.unusedBig (w : Writer) : Nat × Writer :=
  let (n, t) := w.io.bbat.unused
  (n, { w with io := { w.io with bbat := t } })

/-- pole.h:802 `sbat->unused()`. -/
def Writer.unusedSmall (w : Writer) : Nat × Writer :=
  let (n, t) := w.io.sbat.unused
  (n, { w with io := { w.io with sbat := t } })

/-- A changed header. -/
def Writer.setHeader (w : Writer) (h : Header) : Writer :=
  { w with io := { w.io with header := h }, headerDirty := true }

/-- pole.h:2116-2142 `addbbatBlock`. -/
def Writer.addbbatBlock (w : Writer) : Writer :=
  let (new, w) := w.unusedBig
  let w := w.setBig new MetaBat
  let h := w.io.header
  if h.num_bat < 109 then
    w.setHeader { h with bb_blocks := h.bb_blocks.set h.num_bat new, num_bat := h.num_bat + 1 }
  else
    let w := { w with mbatDirty := true, mbat_data := w.mbat_data ++ [new] }
    if (h.num_bat - 109) / (w.io.bbat.blockSize / 8 - 1) = w.mbat_blocks.length then
      let (metaIdx, w) := w.unusedBig
      let w := w.setBig metaIdx MetaBat
      let w := { w with mbat_blocks := w.mbat_blocks ++ [metaIdx] }
      w.setHeader { h with
        mbat_start := if h.num_mbat = 0 then metaIdx else h.mbat_start, num_mbat := h.num_mbat + 1,
        num_bat := h.num_bat + 1 }
    else w.setHeader { h with num_bat := h.num_bat + 1 }

/-- `addbbatBlock` so many times. -/
def Writer.addbbatBlocks : Nat → Writer → Writer
  | 0, w => w
  | n + 1, w => Writer.addbbatBlocks n w.addbbatBlock

/-- pole.h:2103-2105 `while (bbidx >= header->num_bat) addbbatBlock()` for block `new`; every round adds one to
`num_bat`. `sizeof(uint64)` is 8. -/
def Writer.coverBig (w : Writer) (new : Nat) : Writer :=
  Writer.addbbatBlocks (new / (w.io.bbat.blockSize / 8) + 1 - w.io.header.num_bat) w

/-- pole.h:2099-2114 `ExtendFile`: the storage and the chain afterwards. -/
def Writer.extend (w : Writer) (chain : List Nat) : Writer × List Nat :=
  let (new, w) := w.unusedBig
  let w := w.setBig new Eof
  let w := w.coverBig new
  let w := w.markBig new
  let w := match chain.getLast? with
    | none => w
    | some last => (w.setBig last new).markBig last
  (w, chain ++ [new])

/-- `ExtendFile` so many times. -/
def Writer.extends : Nat → Writer → List Nat → Writer × List Nat
  | 0, w, chain => (w, chain)
  | n + 1, w, chain =>
    let (w, chain) := w.extend chain
    Writer.extends n w chain

/-- pole.h:923-936 `DirTree::clear`: the root alone. -/
def newTree : DirTree :=
  [{ valid := true, name := b!"Root Entry".map UInt8.toNat, dir := true, size := 0, start := End, prev := End, next := End,
     child := End }]

/-- pole.h:1477-1497 `StorageIO` and 1617-1635 `create`: a storage with an empty file. The members of the base are those
the constructors set. -/
def Writer.empty : Writer where
  io := { file := [], header := {}, bbat := { blockSize := 512 }, sbat := { blockSize := 64 }, dirtree := newTree,
          sb_blocks := [] }
  writeable := true
  headerDirty := true
  dirDirty := markDirty [] 128 0 512

/-- pole.h:1508-1526 `open(true, true)` with 1647-1667 `init`. -/
def Writer.fresh : Res Writer := do
  let w := Writer.empty
  let h := w.io.header
  let w := w.setHeader { h with
    bb_blocks := h.bb_blocks.set 0 0, dirent_start := 1, sbat_start := 2, num_bat := 1, num_sbat := 1 }
  let w := ((w.setBig 0 Eof).markBig 0)
  let w := ((w.setBig 1 Eof).markBig 1)
  let w := ((w.setBig 2 Eof).markBig 2)
  let w := ((w.setBig 3 Eof).markBig 3)
  let sb ← w.io.bbat.follow 3
  .ok { w with io := { w.io with sb_blocks := sb }, mbatDirty := false }

/-! ## Streams -/

/-- pole.h:507-544 `StreamIO`: the number of the entry, its chain, the position and the cache of `getch` (position
of the cache in the stream, its 4096 bytes, and how many of them are valid). -/
structure WStream where
  idx : Nat
  blocks : List Nat
  pos : Nat := 0
  cache_data : Mem := newMem 4096
  cache_size : Nat := 0
  cache_pos : Nat := 0
  deriving DecidableEq, Repr

/-- The entry of a stream; the pointer is null when there is none. -/
def Writer.entryOf (w : Writer) (idx : Nat) : Res DirEntry :=
  match w.io.dirtree[idx]? with
  | none => .ub .nullDeref
  | some e => .ok e

/-- A changed entry, and its block marked as changed. -/
def Writer.setEntry (w : Writer) (idx : Nat) (e : DirEntry) : Writer :=
  { w with io := { w.io with dirtree := w.io.dirtree.set idx e } }.markDir idx

/-- pole.h:2272-2331 `StreamIO::read(pos, data, maxlen)`. -/
def WStream.readAt (w : Writer) (s : WStream) (pos : Nat) (data : Mem) (maxlen : Nat) : Res (Nat × Mem) := do
  let e ← w.entryOf s.idx
  StreamIO.readAt w.io ⟨e, s.blocks⟩ pos data maxlen

/-- pole.h:2333-2338 `StreamIO::read(data, maxlen)`. -/
def WStream.read (w : Writer) (s : WStream) (data : Mem) (maxlen : Nat) : Res (Nat × Mem × WStream) := do
  let (n, data) ← s.readAt w s.pos data maxlen
  .ok (n, data, { s with pos := u64 (s.pos + n) })

/-- pole.h:2242-2245 `seek`. -/
def WStream.seek (s : WStream) (pos : Nat) : WStream := { s with pos }

/-- pole.h:2427-2438 `updateCache`. -/
def WStream.updateCache (w : Writer) (s : WStream) : Res WStream := do
  let e ← w.entryOf s.idx
  let cp := s.pos - s.pos % 4096
  let bytes := if u64 (cp + 4096) > e.size then sub64 e.size cp else 4096
  let (n, data) ← s.readAt w cp s.cache_data bytes
  .ok { s with cache_pos := cp, cache_size := n, cache_data := data }

/-- pole.h:2252-2270 `getch`: `none` is the result -1. -/
def WStream.getch (w : Writer) (s : WStream) : Res (Option UInt8 × WStream) := do
  let e ← w.entryOf s.idx
  if s.pos ≥ e.size then .ok (none, s)
  else
    let s ← if s.cache_size = 0 ∨ s.pos < s.cache_pos ∨ s.pos ≥ u64 (s.cache_pos + s.cache_size) then
        s.updateCache w else .ok s
    if s.cache_size = 0 then .ok (none, s)
    else do
      let b ← mrd s.cache_data (s.pos - s.cache_pos)
      .ok (some b, { s with pos := u64 (s.pos + 1) })

/-- pole.h:2171-2240 `setSize` of entry `idx`. When the size crosses the threshold and there is data to keep, the
data is copied into a new array that is then freed with `delete` in place of `delete[]` (2229): undefined
behaviour, whatever was done before. Without such data the old blocks are freed; the positions marked as changed
are those in the chain (2206, 2214), not the block numbers. -/
def WStream.setSize (w : Writer) (s : WStream) (newSize : Nat) : Res (Writer × WStream) :=
  if w.writeable then do
    let e ← w.entryOf s.idx
    let t := w.io.header.threshold
    let over := decide (newSize ≥ t ∧ e.size < t)
    let under := decide (newSize < t ∧ e.size ≥ t)
    if over || under then
      let len := if newSize > e.size then e.size else newSize
      if len > 0 then .ub .badDelete
      else
        let free (w : Writer) (k b : Nat) : Writer :=
          if over then (w.setSmall b Avail).markSmall k else (w.setBig b Avail).markBig k
        let w := (s.blocks.zipIdx).foldl (fun w (b, k) => free w k b) w
        .ok (w.setEntry s.idx { e with start := End, size := newSize }, { s with blocks := [] })
    else if e.size ≠ newSize then .ok (w.setEntry s.idx { e with size := newSize }, s)
    else .ok (w, s)
  else .ok (w, s)

/-- pole.h:2373-2379: the small table gets a further block in the file; done once for each block it lacks. -/
def Writer.coverSmall : Nat → Writer → Res Writer
  | 0, w => .ok w
  | n + 1, w => do
    let chain ← w.io.bbat.follow w.io.header.sbat_start
    let (w, _) := w.extend chain
    Writer.coverSmall n (w.setHeader { w.io.header with num_sbat := w.io.header.num_sbat + 1 })

/-- pole.h:2381-2385: the mini stream gets further blocks. -/
def Writer.growMini : Nat → Writer → Writer
  | 0, w => w
  | n + 1, w =>
    let (w, chain) := w.extend w.io.sb_blocks
    Writer.growMini n ({ w with io := { w.io with sb_blocks := chain } }.markDir 0)

/-- pole.h:2359-2386, one round of the loop that adds small blocks. -/
def Writer.extendSmall (w : Writer) (blocks : List Nat) : Res (Writer × List Nat) := do
  let (new, w) := w.unusedSmall
  let w := match blocks.getLast? with
    | none => w
    | some last => (w.setSmall last new).markSmall last
  let w := (w.setSmall new Eof).markSmall new
  let w ← w.coverSmall (new / (w.io.bbat.blockSize / 4) + 1 - w.io.header.num_sbat)
  let sidx := new * w.io.sbat.blockSize / w.io.bbat.blockSize
  let w := w.growMini (sidx + 1 - w.io.sb_blocks.length)
  .ok (w, blocks ++ [new])

/-- pole.h:2357-2386, the loop: so many rounds. -/
def Writer.extendsSmall : Nat → Writer → List Nat → Res (Writer × List Nat)
  | 0, w, blocks => .ok (w, blocks)
  | n + 1, w, blocks => do
    let (w, blocks) ← w.extendSmall blocks
    Writer.extendsSmall n w blocks

/-- pole.h:1985-2003, the loop of `saveSmallBlocks`: file, block sizes, blocks of the mini stream, the small blocks
from the first on, offset in it, bytes so far, data not yet written. -/
def saveSmallLoop (bs ss : Nat) (sb : List Nat) : Bytes → List Nat → Nat → Nat → Bytes → Bytes × Nat
  | file, [], _, bytes, _ => (file, bytes)
  | file, block :: rest, offset, bytes, data =>
    if data.length > 0 then
      let pos := block * ss
      match sb[pos / bs]? with
      | none => (file, bytes)
      | some b =>
        let n := if data.length > ss - offset then ss - offset else data.length
        saveSmallLoop bs ss sb (saveBigBlock file bs b (pos % bs + offset) (data.take n)) rest 0 (bytes + n) (data.drop n)
    else (file, bytes)

/-- pole.h:2400-2413, the loop over the big blocks. -/
def saveBigLoop (bs : Nat) : Bytes → List Nat → Nat → Nat → Bytes → Bytes × Nat
  | file, [], _, bytes, _ => (file, bytes)
  | file, block :: rest, offset, bytes, data =>
    if data.length > 0 then
      let n := if data.length < bs - offset then data.length else bs - offset
      saveBigLoop bs (saveBigBlock file bs block offset (data.take n)) rest 0 (bytes + n) (data.drop n)
    else (file, bytes)

/-- pole.h:2352-2420, `write` after the size was set; `e` is the entry of the stream. -/
def WStream.writeBlocks (w : Writer) (s : WStream) (e : DirEntry) (pos : Nat) (data : Bytes) :
    Res (Writer × WStream × Nat) := do
  let small := decide (e.size < w.io.header.threshold)
  let bs := if small then w.io.sbat.blockSize else w.io.bbat.blockSize
  let missing := (pos + data.length - 1) / bs + 1 - s.blocks.length
  let (w, blocks) ← if small then Writer.extendsSmall missing w s.blocks else .ok (Writer.extends missing w s.blocks)
  let todo := blocks.drop (pos / bs)
  let (file, total) :=
    if small then saveSmallLoop w.io.bbat.blockSize bs w.io.sb_blocks w.io.file todo (pos % bs) 0 data
    else saveBigLoop bs w.io.file todo (pos % bs) 0 data
  let w := { w with io := { w.io with file } }
  let w := match blocks.head? with
    | none => w
    | some b => if e.start ≠ b then w.setEntry s.idx { e with start := b } else w
  .ok (w, { s with blocks, pos := u64 (s.pos + data.length) }, total)

/-- pole.h:2345-2420 `write(pos, data, len)`. -/
def WStream.writeAt (w : Writer) (s : WStream) (pos : Nat) (data : Bytes) : Res (Writer × WStream × Nat) :=
  if data.length = 0 then .ok (w, s, 0)
  else if w.writeable then do
    let e ← w.entryOf s.idx
    let (w, s) ← if u64 (pos + data.length) > e.size then s.setSize w (u64 (pos + data.length)) else .ok (w, s)
    let e ← w.entryOf s.idx
    s.writeBlocks w e pos data
  else .ok (w, s, 0)

/-- pole.h:2340-2343 `write(data, len)`. -/
def WStream.write (w : Writer) (s : WStream) (data : Bytes) : Res (Writer × WStream × Nat) := s.writeAt w s.pos data

/-! ## Directory -/

/-- pole.h:1155-1175 `dirtree_find_sibling`, the output parameter `closest`: `findSibling` in `Model/Pole.lean` is the
result. -/
def findClosest (abi : Abi) (t : DirTree) (name : WStr) : Nat → Nat → Res Nat
  | 0, _ => .fuel
  | f + 1, index =>
    match t[index]? with
    | none => .ok End
    | some e =>
      if ¬ e.valid then .ok End
      else
        let cval := e.compare abi name
        if cval = 0 then .ok End
        else if cval > 0 then
          if e.prev > 0 ∧ e.prev < t.length then findClosest abi t name f e.prev else .ok index
        else
          if e.next > 0 ∧ e.next < t.length then findClosest abi t name f e.next else .ok index

/-- pole.h:1177-1185 `find_child`, the output parameter `closest`. -/
def closestChild (abi : Abi) (t : DirTree) (index : Nat) (name : WStr) : Res Nat :=
  match t[index]? with
  | none => .ok End
  | some p => if p.valid ∧ p.child < t.length then findClosest abi t name (t.length + 1) p.child else .ok End

/-- pole.h:1330-1339 `DirTree::unused`: the number, and the directory afterwards. -/
def unusedEntry (t : DirTree) : Nat × DirTree :=
  match t.findIdx? (fun e => !e.valid) with
  | some i => (i, t)
  | none => (t.length, t ++ [{}])

/-- pole.h:1075-1109: the links for the new entry `index` below `parent2`. The entry was found or made by `unused`, so
the pointers to it and to the parent are not null; that to `closest` is that of an entry visited before. -/
def linkEntry (abi : Abi) (t : DirTree) (index parent2 closest : Nat) (e : DirEntry) : Res (DirTree × Nat) :=
  if closest = End then
    match t[parent2]? with
    | none => .ub .nullDeref
    | some p =>
      let t := t.set index { e with prev := End, next := p.child }
      .ok (t.modify parent2 fun p => { p with child := index }, parent2)
  else
    match t[closest]? with
    | none => .ub .nullDeref
    | some c =>
      if c.compare abi e.name < 0 then
        let t := t.set index { e with prev := c.next, next := End }
        .ok (t.modify closest fun c => { c with next := index }, closest)
      else
        let t := t.set index { e with next := c.prev, prev := End }
        .ok (t.modify closest fun c => { c with prev := index }, closest)

/-- pole.h:1114-1126: the chain of the directory gets further blocks. -/
def Writer.growDir : Nat → Writer → List Nat → Writer
  | 0, w, _ => w
  | n + 1, w, blocks =>
    let (new, w) := w.unusedBig
    let w := match blocks.getLast? with
      | none => w
      | some last => (w.setBig last new).markBig last
    let w := (w.setBig new Eof).markBig new
    Writer.growDir n (w.coverBig new) (blocks ++ [new])

/-- pole.h:1069-1127: a new entry `name` below entry `parent2`, a storage if `dir`. -/
def Writer.newEntry (abi : Abi) (w : Writer) (parent2 closest : Nat) (name : WStr) (dir : Bool) (size : Nat) :
    Res (Writer × Nat) := do
  let (index, t) := unusedEntry w.io.dirtree
  let e : DirEntry := { valid := true, name, dir, size := if dir then 0 else size, start := Eof, child := End }
  let (t, changed) ← linkEntry abi t index parent2 closest e
  let w := { w with io := { w.io with dirtree := t } }
  let w := (w.markDir changed).markDir index
  let blocks ← w.io.bbat.follow w.io.header.dirent_start
  .ok (w.growDir (index / (w.io.bbat.blockSize / 128) + 1 - blocks.length) blocks, index)

/-- pole.h:1037-1128, the walk down the components, making what is missing when `create` and the storage is
writeable. -/
def Writer.descendCreate (abi : Abi) (create : Bool) (size : Nat) : Writer → Nat → List WStr → Res (Writer × Option Nat)
  | w, index, [] => .ok (w, if index < w.io.dirtree.length then some index else none)
  | w, index, n :: ns => do
    let child ← find_child abi w.io.dirtree index n
    if child > 0 then Writer.descendCreate abi create size w child ns
    else if create && w.writeable then do
      let closest ← closestChild abi w.io.dirtree index n
      let (w, index) ← w.newEntry abi index closest n (decide (ns.length > 0)) size
      Writer.descendCreate abi create size w index ns
    else .ok (w, none)

/-- pole.h:1010-1129 `DirTree::entry(name, create, ..)`. -/
def Writer.entryCreate (abi : Abi) (w : Writer) (name : WStr) (create : Bool) (size : Nat) : Res (Writer × Option Nat) :=
  if name.length = 0 then .ok (w, none)
  else if name = [47] then .ok (w, if 0 < w.io.dirtree.length then some 0 else none)
  else
    let names := splitNames [] false (if name.head? = some 47 then name.drop 1 else name)
    w.descendCreate abi create size 0 names

/-- pole.h:2549-2552 `Stream(storage, name, create, size)` with 1744-1760 `streamIO` and 2147-2163; `none` is a null
pointer. The size goes through `int` to `uint64`. -/
def Writer.stream (abi : Abi) (w : Writer) (name : WStr) (create : Bool) (size : Nat) : Res (Writer × Option WStream) :=
  if name.length = 0 then .ok (w, none)
  else do
    let size := if u32 size < 2 ^ 31 then u32 size else u32 size + (2 ^ 64 - 2 ^ 32)
    let (w, i) ← w.entryCreate abi name create size
    match i with
    | none => .ok (w, none)
    | some i => do
      let e ← w.entryOf i
      if e.dir then .ok (w, none)
      else do
        let s ← StreamIO.new w.io e
        .ok (w, some { idx := i, blocks := s.blocks })

end Fileid.Pole
