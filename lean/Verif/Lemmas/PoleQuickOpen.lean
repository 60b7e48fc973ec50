import Verif.Model.Pole

/-!
# Opening computed faster, for the examples
-/

namespace Fileid.Pole

/-- The words at the front of a buffer, in one pass. -/
def quickRead : Mem → Nat → Res (List Nat)
  | _, 0 => .ok []
  | some a :: some b :: some c :: some d :: rest, n + 1 =>
    match quickRead rest n with
    | .ok ws => .ok ((a.toNat + b.toNat * 256 + c.toNat * 65536 + d.toNat * 16777216) :: ws)
    | .throw e => .throw e
    | .ub u => .ub u
    | .fuel => .fuel
  | m, n + 1 => readWords m 0 (n + 1)

theorem mrd_drop (m : Mem) (p i : Nat) : mrd m (p + i) = mrd (m.drop p) i := by
  unfold mrd; rw [List.getElem?_drop]

theorem readU16_drop (m : Mem) (p i : Nat) : readU16 m (p + i) = readU16 (m.drop p) i := by
  unfold readU16; rw [Nat.add_assoc, mrd_drop, mrd_drop]

theorem readU32_drop (m : Mem) (p i : Nat) : readU32 m (p + i) = readU32 (m.drop p) i := by
  unfold readU32; simp only [Nat.add_assoc, mrd_drop]

theorem readWords_drop (n : Nat) : ∀ (m : Mem) (p i : Nat), readWords m (p + i) n = readWords (m.drop p) i n := by
  induction n with
  | zero => intros; rfl
  | succ n ih => intro m p i; unfold readWords; rw [readU32_drop, Nat.add_assoc, ih]

theorem quickRead_eq (n : Nat) : ∀ m : Mem, quickRead m n = readWords m 0 n := by
  induction n with
  | zero => intro m; unfold quickRead; rfl
  | succ n ih =>
    intro m
    unfold quickRead
    split
    · contradiction
    · rename_i a b c d rest n' heq
      cases heq
      rw [ih rest]
      have h1 := readWords_drop n (some a :: some b :: some c :: some d :: rest) 4 0
      show _ = Res.bind (.ok _) fun w => Res.bind (readWords _ (0 + 4) n) fun ws => .ok (w :: ws)
      rw [show 0 + 4 = 4 + 0 from rfl, h1]
      show _ = Res.bind (readWords rest 0 n) _
      cases readWords rest 0 n <;> rfl
    · rename_i n' _ heq; cases heq; rfl

theorem readWords_quick (m : Mem) (i n : Nat) : readWords m i n = quickRead (m.drop i) n := by
  rw [quickRead_eq]; exact readWords_drop n m i 0

theorem actualLen_drop (nameLen f : Nat) : ∀ (m : Mem) (p a : Nat), actualLen m p nameLen f a = actualLen (m.drop p) 0 nameLen f a := by
  induction f with
  | zero => intros; rfl
  | succ f ih => intro m p a; unfold actualLen; rw [mrd_drop, Nat.zero_add, ih]

theorem readId_drop (n : Nat) : ∀ (m : Mem) (p i : Nat), readId m (p + i) n = readId (m.drop p) i n := by
  induction n with
  | zero => intros; rfl
  | succ n ih => intro m p i; unfold readId; rw [mrd_drop, Nat.add_assoc, ih]

theorem wchars_drop (w n : Nat) : ∀ (m : Mem) (p i : Nat), wchars m w (p + i) n = wchars (m.drop p) w i n := by
  induction n with
  | zero => intros; rfl
  | succ n ih => intro m p i; unfold wchars; rw [readId_drop, Nat.add_assoc, ih]

theorem loadEntry_drop (abi : Abi) (m : Mem) (p : Nat) : loadEntry abi m p = loadEntry abi (m.drop p) 0 := by
  have hw : ∀ w n, wchars m w p n = wchars (m.drop p) w 0 n := fun w n => wchars_drop w n m p 0
  have h1 : ∀ k, mrd m (k + p) = mrd (m.drop p) (k + 0) := fun k => by rw [Nat.add_comm, mrd_drop]; rfl
  have h2 : ∀ k, readU16 m (k + p) = readU16 (m.drop p) (k + 0) := fun k => by rw [Nat.add_comm, readU16_drop]; rfl
  have h4 : ∀ k, readU32 m (k + p) = readU32 (m.drop p) (k + 0) := fun k => by rw [Nat.add_comm, readU32_drop]; rfl
  unfold loadEntry
  simp only [h1, h2, h4, hw, actualLen_drop _ _ m p]

/-- The entries, going through the buffer once. -/
def quickTree (abi : Abi) : Mem → Nat → Res DirTree
  | _, 0 => .ok []
  | m, n + 1 => do
    let e ← loadEntry abi m 0
    let es ← quickTree abi (m.drop 128) n
    .ok (e :: es)

theorem loadEntries_quick (abi : Abi) (n : Nat) : ∀ (m : Mem) (p : Nat), loadEntries abi m p n = quickTree abi (m.drop p) n := by
  induction n with
  | zero => intros; rfl
  | succ n ih => intro m p; unfold loadEntries quickTree; rw [loadEntry_drop, ih, List.drop_drop]

def quickLoad (t : AllocTable) (m : Mem) (len : Nat) : Res AllocTable := do
  let ws ← quickRead m (len / 4)
  .ok { t with data := ws, bMaybeFragmented := t.bMaybeFragmented || ws.any (· == Avail) }

def quickTableIn (file : Bytes) (bs : Nat) (t : AllocTable) (blocks : List Nat) : Res AllocTable :=
  if blocks.length * bs > 0 then do
    let m ← loadBigBlocks file bs blocks (newMem (blocks.length * bs)) (blocks.length * bs)
    quickLoad t m (blocks.length * bs)
  else .ok t

def quickContents (abi : Abi) (file : Bytes) (h : Header) : Res OpenResult := do
  let bs := 2 ^ h.b_shift
  let blocks ← getbbatBlocks file h bs
  let bbat ← quickTableIn file bs { blockSize := bs } blocks
  let blocks ← bbat.follow h.sbat_start
  let sbat ← quickTableIn file bs { blockSize := 2 ^ h.s_shift } blocks
  let blocks ← bbat.follow h.dirent_start
  let m ← loadBigBlocks file bs blocks (newMem (blocks.length * bs)) (blocks.length * bs)
  let dirtree ← quickTree abi m (blocks.length * bs / 128)
  let sb_start ← readU32 m 0x74
  let sb_blocks ← bbat.follow sb_start
  .ok (.opened { file, header := h, bbat, sbat, dirtree, sb_blocks })

def quickHeader (m : Mem) : Res Header := do
  let b_shift ← readU16 m 0x1e
  let s_shift ← readU16 m 0x20
  let num_bat ← readU32 m 0x2c
  let dirent_start ← readU32 m 0x30
  let threshold ← readU32 m 0x38
  let sbat_start ← readU32 m 0x3c
  let num_sbat ← readU32 m 0x40
  let mbat_start ← readU32 m 0x44
  let num_mbat ← readU32 m 0x48
  let id ← readId m 0 8
  let bb_blocks ← quickRead (m.drop 0x4C) 109
  .ok { id, b_shift, s_shift, num_bat, dirent_start, threshold, sbat_start, num_sbat, mbat_start, num_mbat,
        bb_blocks }

/-- `openStorage`, going through the tables once. -/
def quickOpen (abi : Abi) (file : Common.File) : Res OpenResult :=
  match file with
  | none => .ok .openFailed
  | some c => do
    let m ← mwr (newMem 512) 0 ((c.take 512).map some)
    let h ← quickHeader m
    if h.id ≠ pole_magic then .ok .notOle
    else if ¬ h.valid then .ok .badOle
    else quickContents abi c h

theorem quickTableIn_eq : quickTableIn = loadTable := by
  funext file bs t blocks
  unfold quickTableIn loadTable
  have : quickLoad = AllocTable.load := by
    funext t m len
    unfold quickLoad AllocTable.load
    rw [readWords_quick]; rfl
  rw [this]

theorem openStorage_quick (abi : Abi) (file : Common.File) : openStorage abi file = quickOpen abi file := by
  have h1 : quickHeader = Header.load := by
    funext m
    unfold quickHeader Header.load
    simp only [readWords_quick]
  have h2 : quickContents = loadContents := by
    funext abi file h
    unfold quickContents loadContents
    rw [quickTableIn_eq]
    simp only [loadTree, loadEntries_quick, List.drop_zero]
  unfold openStorage quickOpen
  rw [h1, h2]
  cases file <;> rfl

end Fileid.Pole
