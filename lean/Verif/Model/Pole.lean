import Verif.Model.Common

/-!
# Model of `fileid/oless/pole.h` (reading side, and the tables of the writing side)

Line numbers are those of `fileid/oless/pole.h`. `uint64` values are natural numbers; the places where an
operation can wrap use `u64`/`sub64`. Buffers obtained from `new unsigned char[n]` start indeterminate, so
a buffer is a list of optional bytes. Allocation always succeeds.
-/

namespace Fileid.Pole

open Common

/-! ## Memory -/

/-- A heap buffer; `none` is a byte that was never written. -/
abbrev Mem := List (Option UInt8)

/-- `new unsigned char[n]`. -/
def newMem (n : Nat) : Mem := List.replicate n none

/-- Use of the value of byte `i`. -/
def mrd (m : Mem) (i : Nat) : Res UInt8 :=
  match m[i]? with
  | none => .ub .oobRead
  | some none => .ub .uninit
  | some (some b) => .ok b

/-- `memcpy` out of a buffer: copies bytes without using their values. -/
def mslice (m : Mem) (i n : Nat) : Res Mem :=
  if i + n ≤ m.length then .ok ((m.drop i).take n) else .ub .oobRead

/-- `memcpy` / `file.read` into a buffer. -/
def mwr (m : Mem) (i : Nat) (bs : Mem) : Res Mem :=
  if i + bs.length ≤ m.length then .ok (m.take i ++ bs ++ m.drop (i + bs.length)) else .ub .oobWrite

/-- pole.h:578-581 `readU16`. -/
def readU16 (m : Mem) (i : Nat) : Res Nat := do
  let a ← mrd m i
  let b ← mrd m (i + 1)
  .ok (a.toNat + b.toNat * 256)

/-- pole.h:583-586 `readU32`. The shift into the sign bit of `int` is read as two's complement (C++14 and
later), so the result is the 32-bit little-endian value. -/
def readU32 (m : Mem) (i : Nat) : Res Nat := do
  let a ← mrd m i
  let b ← mrd m (i + 1)
  let c ← mrd m (i + 2)
  let d ← mrd m (i + 3)
  .ok (a.toNat + b.toNat * 256 + c.toNat * 65536 + d.toNat * 16777216)

/-- pole.h:588-592 `writeU16`. -/
def writeU16 (m : Mem) (i data : Nat) : Res Mem :=
  mwr m i [some (UInt8.ofNat (data &&& 0xff)), some (UInt8.ofNat ((data >>> 8) &&& 0xff))]

/-- pole.h:594-600 `writeU32`. -/
def writeU32 (m : Mem) (i data : Nat) : Res Mem :=
  mwr m i [some (UInt8.ofNat (data &&& 0xff)), some (UInt8.ofNat ((data >>> 8) &&& 0xff)),
    some (UInt8.ofNat ((data >>> 16) &&& 0xff)), some (UInt8.ofNat ((data >>> 24) &&& 0xff))]

/-- `n` 32-bit words from offset `i` on. -/
def readWords (m : Mem) : Nat → Nat → Res (List Nat)
  | _, 0 => .ok []
  | i, n + 1 => do
    let w ← readU32 m i
    let ws ← readWords m (i + 4) n
    .ok (w :: ws)

/-- Writes the words one after the other from offset `i` on. -/
def writeWords (m : Mem) : Nat → List Nat → Res Mem
  | _, [] => .ok m
  | i, w :: ws => do
    let m ← writeU32 m i (u32 w)
    writeWords m (i + 4) ws

/-! ## Header -/

/-- pole.h:602-603 `pole_magic`. -/
def pole_magic : Bytes := [0xd0, 0xcf, 0x11, 0xe0, 0xa1, 0xb1, 0x1a, 0xe1]

/-- pole.h:706-709 the special values of `AllocTable`. -/
def Avail : Nat := 0xffffffff
def Eof : Nat := 0xfffffffe
def Bat : Nat := 0xfffffffd
def MetaBat : Nat := 0xfffffffc

/-- pole.h:327-348 `Header`, 607-624 its constructor, without `dirty`. -/
structure Header where
  id : Bytes := pole_magic
  b_shift : Nat := 9
  s_shift : Nat := 6
  num_bat : Nat := 0
  dirent_start : Nat := 0
  threshold : Nat := 4096
  sbat_start : Nat := 0
  num_sbat : Nat := 0
  mbat_start : Nat := Eof
  num_mbat : Nat := 0
  bb_blocks : List Nat := List.replicate 109 Avail
  deriving DecidableEq, Repr

/-- pole.h:626-637 `Header::valid`. -/
def Header.valid (h : Header) : Bool :=
  if h.threshold ≠ 4096 then false
  else if h.num_bat = 0 then false
  else if h.num_bat < 109 ∧ h.num_mbat ≠ 0 then false
  else if h.s_shift > h.b_shift then false
  else if h.b_shift ≤ 6 then false
  else if h.b_shift ≥ 31 then false
  else true

/-- pole.h:650-651 the bytes `0..n-1` of the buffer. -/
def readId (m : Mem) : Nat → Nat → Res Bytes
  | _, 0 => .ok []
  | i, n + 1 => do
    let b ← mrd m i
    let bs ← readId m (i + 1) n
    .ok (b :: bs)

/-- pole.h:639-657 `Header::load`. -/
def Header.load (m : Mem) : Res Header := do
  let b_shift ← readU16 m 0x1e
  let s_shift ← readU16 m 0x20
  let num_bat ← readU32 m 0x2c
  let dirent_start ← readU32 m 0x30
  let threshold ← readU32 m 0x38
  let sbat_start ← readU32 m 0x3c
  let num_sbat ← readU32 m 0x40
  let mbat_start ← readU32 m 0x44
  let num_mbat ← readU32 m 0x48
  let id ← readId m 0 8
  let bb_blocks ← readWords m 0x4C 109
  .ok { id, b_shift, s_shift, num_bat, dirent_start, threshold, sbat_start, num_sbat, mbat_start, num_mbat,
        bb_blocks }

/-- pole.h:659-681 `Header::save`. The casts to `uint32` are `u32`. -/
def Header.save (h : Header) (m : Mem) : Res Mem := do
  let m ← mwr m 0 (List.replicate 0x4c (some 0))
  let m ← mwr m 0 (pole_magic.map some)
  let m ← writeU32 m 8 0
  let m ← writeU32 m 12 0
  let m ← writeU32 m 16 0
  let m ← writeU16 m 24 0x003e
  let m ← writeU16 m 26 3
  let m ← writeU16 m 28 0xfffe
  let m ← writeU16 m 0x1e (u32 h.b_shift)
  let m ← writeU16 m 0x20 (u32 h.s_shift)
  let m ← writeU32 m 0x2c (u32 h.num_bat)
  let m ← writeU32 m 0x30 (u32 h.dirent_start)
  let m ← writeU32 m 0x38 (u32 h.threshold)
  let m ← writeU32 m 0x3c (u32 h.sbat_start)
  let m ← writeU32 m 0x40 (u32 h.num_sbat)
  let m ← writeU32 m 0x44 (u32 h.mbat_start)
  let m ← writeU32 m 0x48 (u32 h.num_mbat)
  writeWords m 0x4C h.bb_blocks

/-! ## Allocation tables -/

/-- pole.h:350-382 `AllocTable`, 711-719 its constructor, without the list of dirty blocks. -/
structure AllocTable where
  blockSize : Nat := 4096
  data : List Nat := List.replicate 128 Avail
  bMaybeFragmented : Bool := true
  deriving DecidableEq, Repr

/-- pole.h:721-724 `count`. -/
def AllocTable.count (t : AllocTable) : Nat := t.data.length

/-- pole.h:726-736 `unusedCount`. -/
def AllocTable.unusedCount (t : AllocTable) : Nat := (t.data.filter fun x => decide (x = Avail)).length

/-- pole.h:738-745 `resize`. -/
def AllocTable.resize (t : AllocTable) (newsize : Nat) : AllocTable :=
  { t with data := t.data.take newsize ++ List.replicate (newsize - t.data.length) Avail }

/-- pole.h:762-768 `set`. -/
def AllocTable.set (t : AllocTable) (index value : Nat) : AllocTable :=
  let t := if index ≥ t.count then t.resize (index + 1) else t
  { t with data := t.data.set index value,
           bMaybeFragmented := if value = Avail then true else t.bMaybeFragmented }

/-- pole.h:770-778 `setChain`. -/
def AllocTable.setChain (t : AllocTable) : List Nat → AllocTable
  | [] => t
  | [x] => t.set x Eof
  | x :: y :: xs => (t.set x y).setChain (y :: xs)

/-- pole.h:787-797, the loop of `follow`; the first argument is the step budget. -/
def followLoop (data : List Nat) : Nat → Nat → List Nat → Res (List Nat)
  | 0, _, _ => .fuel
  | f + 1, p, chain =>
    match data[p]? with
    | none => .ok chain
    | some n =>
      if p = Eof ∨ p = Bat ∨ p = MetaBat then .ok chain
      else if n ≥ data.length then .ok (chain ++ [p])
      else followLoop data f n (chain ++ [p])

/-- pole.h:781-800 `follow`. The result `.fuel` means that the loop never ends
(`Fileid.Props.C40_terminates_iff_partial`). -/
def AllocTable.follow (t : AllocTable) (start : Nat) : Res (List Nat) :=
  if start ≥ t.count then .ok [] else followLoop t.data (t.count + 1) start []

/-- pole.h:802-818 `unused`: the block, and the table afterwards (`resize(maxIdx)` changes nothing). -/
def AllocTable.unused (t : AllocTable) : Nat × AllocTable :=
  match (if t.bMaybeFragmented then t.data.findIdx? (· == Avail) else none) with
  | some i => (i, t)
  | none => (t.count, { t with bMaybeFragmented := false })

/-- pole.h:820-825 `load`: `resize` and `set` of every slot. -/
def AllocTable.load (t : AllocTable) (m : Mem) (len : Nat) : Res AllocTable := do
  let ws ← readWords m 0 (len / 4)
  .ok { t with data := ws, bMaybeFragmented := t.bMaybeFragmented || ws.any (· == Avail) }

/-- pole.h:833-837 `save`. -/
def AllocTable.save (t : AllocTable) (m : Mem) : Res Mem := writeWords m 0 t.data

/-! ## Directory -/

/-- A wide string: the numerical values of its `wchar_t` units. -/
abbrev WStr := List Nat

/-- pole.h:384-399 `DirEntry`. -/
structure DirEntry where
  valid : Bool := false
  name : WStr := []
  dir : Bool := false
  size : Nat := 0
  start : Nat := 0
  prev : Nat := 0
  next : Nat := 0
  child : Nat := 0
  deriving DecidableEq, Repr

/-- pole.h:914 `DirTree::End`. -/
def End : Nat := 0xffffffff

/-- The value of a `wchar_t`: signed 32-bit with g++ on Linux, unsigned 16-bit on Windows. -/
def wcharVal (abi : Abi) (u : Nat) : Int := if abi.wcharBytes = 4 then toSigned 32 u else u

/-- `std::wstring::compare` for strings of one length. -/
def wcompare (abi : Abi) : WStr → WStr → Int
  | [], [] => 0
  | [], _ :: _ => -1
  | _ :: _, [] => 1
  | x :: xs, y :: ys =>
    if wcharVal abi x < wcharVal abi y then -1
    else if wcharVal abi y < wcharVal abi x then 1
    else wcompare abi xs ys

/-- pole.h:901-909 `DirEntry::compare`. -/
def DirEntry.compare (abi : Abi) (e : DirEntry) (name2 : WStr) : Int :=
  if e.name.length < name2.length then -1
  else if e.name.length > name2.length then 1
  else wcompare abi e.name name2

/-- `DirTree::entries`. -/
abbrev DirTree := List DirEntry

/-- pole.h:392-397 the left link, the right link and the name of entry `i`; `End` and the empty name outside the
directory. -/
def leftOf (t : DirTree) (i : Nat) : Nat := ((t[i]?).map (·.prev)).getD End
def rightOf (t : DirTree) (i : Nat) : Nat := ((t[i]?).map (·.next)).getD End
def entryName (t : DirTree) (i : Nat) : WStr := ((t[i]?).map (·.name)).getD []

/-- pole.h:1132-1142 `dirtree_find_siblings`; the first argument bounds the depth of the recursion. -/
def findSiblings (t : DirTree) : Nat → Nat → List Nat → Res (List Nat)
  | 0, _, _ => .fuel
  | f + 1, index, result =>
    match t[index]? with
    | none => .ok result
    | some e => do
      let result ← if e.prev ≠ End then findSiblings t f e.prev result else .ok result
      let result := result ++ [index]
      if e.next ≠ End then findSiblings t f e.next result else .ok result

/-- pole.h:1144-1153 `DirTree::children`. -/
def children (t : DirTree) (index : Nat) : Res (List Nat) :=
  match t[index]? with
  | none => .ok []
  | some e => if e.valid ∧ e.child < t.length then findSiblings t (t.length + 1) e.child [] else .ok []

/-- pole.h:1155-1175 `dirtree_find_sibling`; the first argument bounds the depth of the recursion. The
output parameter `closest` is used only when entries are created and is left out. -/
def findSibling (abi : Abi) (t : DirTree) (name : WStr) : Nat → Nat → Res Nat
  | 0, _ => .fuel
  | f + 1, index =>
    match t[index]? with
    | none => .ok 0
    | some e =>
      if ¬ e.valid then .ok 0
      else
        let cval := e.compare abi name
        if cval = 0 then .ok index
        else if cval > 0 then
          if e.prev > 0 ∧ e.prev < t.length then findSibling abi t name f e.prev else .ok 0
        else
          if e.next > 0 ∧ e.next < t.length then findSibling abi t name f e.next else .ok 0

/-- pole.h:1177-1185 `DirTree::find_child`. -/
def find_child (abi : Abi) (t : DirTree) (index : Nat) (name : WStr) : Res Nat :=
  match t[index]? with
  | none => .ok 0
  | some p => if p.valid ∧ p.child < t.length then findSibling abi t name (t.length + 1) p.child else .ok 0

/-- pole.h:1019-1031, the components of a path after the optional leading slash. -/
def splitNames (cur : WStr) (pending : Bool) : WStr → List WStr
  | [] => if pending then [cur] else []
  | c :: cs => if c = 47 then cur :: splitNames [] false cs else splitNames (cur ++ [c]) true cs

/-- pole.h:1033-1069, the walk down the components (without creation of entries). -/
def descend (abi : Abi) (t : DirTree) : Nat → List WStr → Res (Option Nat)
  | index, [] => .ok (if index < t.length then some index else none)
  | index, n :: ns => do
    let child ← find_child abi t index n
    if child > 0 then descend abi t child ns else .ok none

/-- pole.h:1010-1129 `DirTree::entry(name)` with `create` false: the index of the entry, or none for a null
pointer. -/
def entryIdx (abi : Abi) (t : DirTree) (name : WStr) : Res (Option Nat) :=
  if name.length = 0 then .ok none
  else if name = [47] then .ok (if 0 < t.length then some 0 else none)
  else
    let names := splitNames [] false (if name.head? = some 47 then name.drop 1 else name)
    descend abi t 0 names

/-- pole.h:1201-1202, the length of the name in bytes; the first argument is the step budget. -/
def actualLen (m : Mem) (p nameLen : Nat) : Nat → Nat → Res Nat
  | 0, _ => .fuel
  | f + 1, a =>
    if a < nameLen then do
      let b ← mrd m (p + a)
      if b ≠ 0 then actualLen m p nameLen f (a + 2) else .ok a
    else .ok a

/-- `n` units of `w` bytes each from offset `p` on, little endian. -/
def wchars (m : Mem) (w : Nat) : Nat → Nat → Res WStr
  | _, 0 => .ok []
  | p, n + 1 => do
    let bs ← readId m p w
    let rest ← wchars m w (p + w) n
    .ok (leVal bs :: rest)

/-- pole.h:1193-1223, one directory entry at offset `p`. The name is read through a cast to `wchar_t*`
(1203): units of `sizeof(wchar_t)` bytes. -/
def loadEntry (abi : Abi) (m : Mem) (p : Nat) : Res DirEntry := do
  let nl ← readU16 m (0x40 + p)
  let name_len := if nl > 64 then 64 else nl
  let actual ← actualLen m p name_len 33 0
  let name ← wchars m abi.wcharBytes p (actual / 2)
  let type ← mrd m (0x42 + p)
  let start ← readU32 m (0x74 + p)
  let size ← readU32 m (0x78 + p)
  let prev ← readU32 m (0x44 + p)
  let next ← readU32 m (0x48 + p)
  let child ← readU32 m (0x4C + p)
  .ok { valid := decide ((type = 2 ∨ type = 1 ∨ type = 5) ∧ ¬ name_len < 1), name, dir := decide (type ≠ 2),
        start, size, prev, next, child }

/-- pole.h:1191-1224, the entries at `p`, `p + 128`, ... -/
def loadEntries (abi : Abi) (m : Mem) : Nat → Nat → Res DirTree
  | _, 0 => .ok []
  | p, n + 1 => do
    let e ← loadEntry abi m p
    let es ← loadEntries abi m (p + 128) n
    .ok (e :: es)

/-- pole.h:1187-1225 `DirTree::load`. -/
def loadTree (abi : Abi) (m : Mem) (size : Nat) : Res DirTree := loadEntries abi m 0 (size / 128)

/-! ## Storage -/

/-- pole.h:434-505 the part of `StorageIO` that reading uses. -/
structure StorageIO where
  file : Bytes
  header : Header
  bbat : AllocTable
  sbat : AllocTable
  dirtree : DirTree
  sb_blocks : List Nat
  deriving DecidableEq, Repr

/-- pole.h:1838-1851, the loop of `loadBigBlocks`: file content, block size, limit, the blocks still to read,
bytes so far, buffer. Block numbers are below 2^32 and block sizes at most 2^30, so `pos + p` does not wrap;
`filesize - pos` wraps when the block lies behind the end of the file, and `read` with that length, negative
as a `streamsize`, stores nothing. -/
def loadLoop (file : Bytes) (bs maxlen : Nat) : List Nat → Nat → Mem → Res Mem
  | [], _, m => .ok m
  | block :: rest, bytes, m =>
    if bytes < maxlen then do
      let pos := bs * (block + 1)
      let p := if bs < maxlen - bytes then bs else maxlen - bytes
      let p := if pos + p > file.length then sub64 file.length pos else p
      let got := if pos ≤ file.length then ((file.drop pos).take p).map some else []
      let m ← mwr m bytes got
      loadLoop file bs maxlen rest (u64 (bytes + p)) m
    else .ok m

/-- pole.h:1827-1854 `loadBigBlocks` into a buffer (the byte count it returns is never used). -/
def loadBigBlocks (file : Bytes) (bs : Nat) (blocks : List Nat) (m : Mem) (maxlen : Nat) : Res Mem :=
  loadLoop file bs maxlen blocks 0 m

/-- pole.h:1856-1870 `loadBigBlock`. -/
def loadBigBlock (file : Bytes) (bs block : Nat) (m : Mem) (maxlen : Nat) : Res Mem :=
  loadBigBlocks file bs [block] m maxlen

/-- pole.h:2070-2080, the loop over the words of one meta block: buffer, number of blocks wanted, offset,
blocks so far. The C++ code counts with `k`, which is the number of blocks filled so far. -/
def metaWords (m : Mem) (num_bat : Nat) : Nat → Nat → List Nat → Res (List Nat)
  | _, 0, blocks => .ok blocks
  | s, n + 1, blocks =>
    if blocks.length ≥ num_bat then .ok blocks
    else do
      let w ← readU32 m s
      metaWords m num_bat (s + 4) n (blocks ++ [w])

/-- pole.h:2058-2081, the loop over the meta blocks. `blocks` holds the `k` slots filled so far. -/
def metaLoop (file : Bytes) (bs num_bat mbat_start : Nat) : Nat → Bool → Mem → List Nat → Res (List Nat)
  | 0, _, _, blocks => .ok blocks
  | n + 1, first, m, blocks => do
    let sector := if first then mbat_start else (blocks.getLast?).getD 0
    let blocks := if first then blocks else blocks.dropLast
    let m ← loadBigBlock file bs sector m bs
    let blocks ← metaWords m num_bat 0 (bs / 4) blocks
    metaLoop file bs num_bat mbat_start n false m blocks

/-- pole.h:2033-2097 `getbbatBlocks(true)`: the blocks of the big allocation table. Slots that the meta
blocks do not fill stay 0 (`resize`). `mbat_blocks` and `mbat_data`, used only for writing, are left out. -/
def getbbatBlocks (file : Bytes) (h : Header) (bs : Nat) : Res (List Nat) := do
  let first := h.bb_blocks.take h.num_bat
  let blocks ←
    if h.num_bat > 109 ∧ h.num_mbat > 0 then
      metaLoop file bs h.num_bat h.mbat_start h.num_mbat true (newMem bs) first
    else .ok first
  .ok (blocks ++ List.replicate (h.num_bat - blocks.length) 0)

/-- pole.h:100 the outcomes of opening. -/
inductive OpenResult
  | openFailed
  | notOle
  | badOle
  | opened (io : StorageIO)
  deriving DecidableEq, Repr

/-- pole.h:1580-1588 and 1590-1600, a table loaded from its blocks; nothing is done for no block. -/
def loadTable (file : Bytes) (bs : Nat) (t : AllocTable) (blocks : List Nat) : Res AllocTable :=
  if blocks.length * bs > 0 then do
    let m ← loadBigBlocks file bs blocks (newMem (blocks.length * bs)) (blocks.length * bs)
    t.load m (blocks.length * bs)
  else .ok t

/-- pole.h:1574-1626, the part of `load` after the checks of the header. -/
def loadContents (abi : Abi) (file : Bytes) (h : Header) : Res OpenResult := do
  let bs := 2 ^ h.b_shift
  let blocks ← getbbatBlocks file h bs
  let bbat ← loadTable file bs { blockSize := bs } blocks
  let blocks ← bbat.follow h.sbat_start
  let sbat ← loadTable file bs { blockSize := 2 ^ h.s_shift } blocks
  let blocks ← bbat.follow h.dirent_start
  let m ← loadBigBlocks file bs blocks (newMem (blocks.length * bs)) (blocks.length * bs)
  let dirtree ← loadTree abi m (blocks.length * bs)
  let sb_start ← readU32 m 0x74
  let sb_blocks ← bbat.follow sb_start
  .ok (.opened { file, header := h, bbat, sbat, dirtree, sb_blocks })

/-- pole.h:1528-1626 `StorageIO::load`, reached from `Storage::open()`. The first 512 bytes are read into a
fresh buffer. -/
def openStorage (abi : Abi) (file : File) : Res OpenResult :=
  match file with
  | none => .ok .openFailed
  | some c => do
    let m ← mwr (newMem 512) 0 ((c.take 512).map some)
    let h ← Header.load m
    if h.id ≠ pole_magic then .ok .notOle
    else if ¬ h.valid then .ok .badOle
    else loadContents abi c h

/-- pole.h:2471-2478, the names of the children of an entry, if it is a directory. -/
def entriesOf (t : DirTree) (i : Nat) (e : DirEntry) : Res (List WStr) :=
  if e.dir then do
    let ch ← children t i
    .ok (ch.map fun j => ((t[j]?).map (·.name)).getD [])
  else .ok []

/-- pole.h:2470-2480, for the entry found. -/
def entriesAt (t : DirTree) (i : Option Nat) : Res (List WStr) :=
  match i with
  | none => .ok []
  | some i =>
    match t[i]? with
    | none => .ok []
    | some e => entriesOf t i e

/-- pole.h:2467-2481 `Storage::entries`. -/
def StorageIO.entries (abi : Abi) (io : StorageIO) (path : WStr) : Res (List WStr) := do
  let i ← entryIdx abi io.dirtree path
  entriesAt io.dirtree i

/-- pole.h:2483-2487 `Storage::isDirectory`. -/
def StorageIO.isDirectory (abi : Abi) (io : StorageIO) (name : WStr) : Res Bool := do
  let i ← entryIdx abi io.dirtree name
  .ok ((i.bind (io.dirtree[·]?)).map (·.dir) |>.getD false)

/-- pole.h:2489-2493 `Storage::exists`. -/
def StorageIO.exists (abi : Abi) (io : StorageIO) (name : WStr) : Res Bool := do
  let i ← entryIdx abi io.dirtree name
  .ok i.isSome

/-! ## Streams -/

/-- pole.h:507-544 `StreamIO`: the entry and its chain. -/
structure StreamIO where
  entry : DirEntry
  blocks : List Nat
  deriving DecidableEq, Repr

/-- pole.h:2147-2163 the constructor of `StreamIO`. -/
def StreamIO.new (io : StorageIO) (e : DirEntry) : Res StreamIO := do
  let blocks ← if e.size ≥ io.header.threshold then io.bbat.follow e.start else io.sbat.follow e.start
  .ok ⟨e, blocks⟩

/-- pole.h:1749-1759, for the entry found. -/
def streamOf (io : StorageIO) (e : Option DirEntry) : Res (Option StreamIO) :=
  match e with
  | none => .ok none
  | some e =>
    if e.dir then .ok none
    else do
      let s ← StreamIO.new io e
      .ok (some s)

/-- pole.h:1744-1760 `StorageIO::streamIO` without creation; `none` is a null pointer. -/
def StorageIO.streamIO (abi : Abi) (io : StorageIO) (name : WStr) : Res (Option StreamIO) :=
  if name.length = 0 then .ok none
  else do
    let i ← entryIdx abi io.dirtree name
    streamOf io (i.bind (io.dirtree[·]?))

/-- pole.h:1918-1971 `loadSmallBlock`: `loadSmallBlocks` for one block. -/
def loadSmallBlock (io : StorageIO) (block : Nat) (m : Mem) (maxlen : Nat) : Res Mem :=
  if maxlen = 0 then .ok m
  else
    let pos := block * io.sbat.blockSize
    let bbindex := pos / io.bbat.blockSize
    match io.sb_blocks[bbindex]? with
    | none => .ok m
    | some b => do
      let buf ← loadBigBlock io.file io.bbat.blockSize b (newMem io.bbat.blockSize) io.bbat.blockSize
      let offset := pos % io.bbat.blockSize
      let p := if maxlen < io.bbat.blockSize - offset then maxlen else io.bbat.blockSize - offset
      let p := if io.sbat.blockSize < p then io.sbat.blockSize else p
      let bs ← mslice buf offset p
      mwr m 0 bs

/-- pole.h:2292-2302 and 2315-2325, the loops of `StreamIO::read`: how a block is loaded, block size, limit, the
chain from the current index on, offset in the first block, bytes so far, block buffer, output buffer. -/
def readLoop (load : Nat → Mem → Res Mem) (bs maxlen : Nat) :
    List Nat → Nat → Nat → Mem → Mem → Res (Nat × Mem)
  | [], _, total, _, data => .ok (total, data)
  | b :: rest, offset, total, buf, data =>
    if total < maxlen then do
      let buf ← load b buf
      let count := if bs - offset > maxlen - total then maxlen - total else bs - offset
      let chunk ← mslice buf offset count
      let data ← mwr data total chunk
      readLoop load bs maxlen rest 0 (total + count) buf data
    else .ok (total, data)

/-- pole.h:2272-2331 `StreamIO::read(pos, data, maxlen)`. -/
def StreamIO.readAt (io : StorageIO) (s : StreamIO) (pos : Nat) (data : Mem) (maxlen : Nat) : Res (Nat × Mem) :=
  if maxlen = 0 then .ok (0, data)
  else
    let maxlen := if u64 (pos + maxlen) > s.entry.size then sub64 s.entry.size pos else maxlen
    let small := decide (s.entry.size < io.header.threshold)
    let bs := if small then io.sbat.blockSize else io.bbat.blockSize
    let index := pos / bs
    if index ≥ s.blocks.length then .ok (0, data)
    else
      readLoop
        (if small then fun b buf => loadSmallBlock io b buf io.bbat.blockSize
         else fun b buf => loadBigBlock io.file io.bbat.blockSize b buf io.bbat.blockSize)
        bs maxlen (s.blocks.drop index) (pos % bs) 0 (newMem bs) data

/-- pole.h:2576-2582, `Stream::size`: 0 when the stream could not be opened. -/
def streamSize : Option StreamIO → Nat
  | none => 0
  | some s => s.entry.size

/-- pole.h:2600-2603 `Stream::read` of a stream at position `pos`. -/
def streamRead (io : StorageIO) (s : Option StreamIO) (pos : Nat) (data : Mem) (maxlen : Nat) : Res (Nat × Mem) :=
  match s with
  | none => .ok (0, data)
  | some s => s.readAt io pos data maxlen

end Fileid.Pole
