import Verif.Lemmas.PoleReopen

/-!
# A flush computed faster, for the examples
-/

namespace Fileid.Pole

open Spec Props

/-- The words of a list, at once. -/
def quickWords (m : Mem) (i : Nat) (ws : List Nat) : Res Mem :=
  if (ws.all fun w => decide (w < 2 ^ 32)) && decide (i + 4 * ws.length ≤ m.length) then
    .ok (m.take i ++ (wordBytes ws).map some ++ m.drop (i + 4 * ws.length))
  else writeWords m i ws

theorem quickWords_eq (m : Mem) (i : Nat) (ws : List Nat) : quickWords m i ws = writeWords m i ws := by
  unfold quickWords
  split
  · rename_i h
    simp only [Bool.and_eq_true, List.all_eq_true, decide_eq_true_eq] at h
    obtain ⟨h, hl⟩ := h
    have e : m = m.take i ++ (m.drop i).take (4 * ws.length) ++ m.drop (i + 4 * ws.length) := by
      rw [List.append_assoc, ← List.drop_drop, List.take_append_drop, List.take_append_drop]
    have hi : (m.take i).length = i := by simp; omega
    have h1 := writeWords_eq (m.take i) ((m.drop i).take (4 * ws.length)) (m.drop (i + 4 * ws.length)) ws
      (by simp; omega) h
    rw [← e, hi] at h1
    exact h1.symm
  · rfl

/-- The bytes of a buffer, if all are initialised. -/
def allSome : Mem → Option Bytes
  | [] => some []
  | none :: _ => none
  | some b :: m => (allSome m).map (b :: ·)

theorem allSome_eq (m : Mem) (bytes : Bytes) (h : allSome m = some bytes) : m = bytes.map some := by
  induction m generalizing bytes with
  | nil => cases h; rfl
  | cons x m ih =>
    cases x with
    | none => cases h
    | some b =>
      unfold allSome at h
      cases hm : allSome m with
      | none => rw [hm] at h; cases h
      | some r => rw [hm] at h; cases h; rw [ih r hm]; rfl

/-- Bytes of a buffer, at once. -/
def quickId (m : Mem) (pos n : Nat) : Res Bytes :=
  match allSome ((m.drop pos).take n) with
  | some bytes => if bytes.length = n then .ok bytes else readId m pos n
  | none => readId m pos n

theorem readId_part (n : Nat) : ∀ (m : Mem) (pos : Nat) (bytes : Bytes), (m.drop pos).take n = bytes.map some → bytes.length = n →
    readId m pos n = .ok bytes := by
  induction n with
  | zero => intro m pos bytes _ hl; rw [List.length_eq_zero_iff.1 hl]; rfl
  | succ n ih =>
    intro m pos bytes h hl
    cases bytes with
    | nil => cases hl
    | cons b bytes =>
      have hpos : pos < m.length := by
        have := congrArg List.length h
        simp at this
        omega
      rw [List.drop_eq_getElem_cons hpos, List.take_succ_cons, List.map_cons, List.cons.injEq] at h
      unfold readId
      rw [ih m (pos + 1) bytes h.2 (by simpa using hl)]
      have : mrd m pos = .ok b := by
        unfold mrd
        rw [List.getElem?_eq_getElem hpos, h.1]
      rw [this]
      rfl

theorem quickId_eq (m : Mem) (pos n : Nat) : quickId m pos n = readId m pos n := by
  unfold quickId
  split
  · rename_i bytes h
    split
    · rename_i hl
      exact (readId_part n m pos bytes (allSome_eq _ _ h) hl).symm
    · rfl
  · rfl

/-- `flushTableLoop`, faster. -/
def quickLoop (bs : Nat) (dirty : List Nat) (buffer : Mem) : List Nat → Nat → Bytes → Res Bytes
  | [], _, file => .ok file
  | block :: rest, idx, file =>
    if idx ∈ dirty then do
      let data ← quickId buffer (bs * idx) bs
      quickLoop bs dirty buffer rest (idx + 1) (saveBigBlock file bs block 0 data)
    else quickLoop bs dirty buffer rest (idx + 1) file

theorem quickLoop_eq (bs : Nat) (dirty : List Nat) (buffer : Mem) (blocks : List Nat) : ∀ (idx : Nat) (file : Bytes),
    quickLoop bs dirty buffer blocks idx file = flushTableLoop bs dirty buffer blocks idx file := by
  induction blocks with
  | nil => intro idx file; rfl
  | cons b blocks ih =>
    intro idx file
    unfold quickLoop flushTableLoop
    simp only [quickId_eq, ih]

/-- `AllocTable.flush`, faster. -/
def quickTable (junk : Nat → UInt8) (t : AllocTable) (dirty : List Nat) (blocks : List Nat) (file : Bytes) (bs : Nat) :
    Res Bytes := do
  let buffer ← quickWords (junkMem junk (bs * blocks.length)) 0 t.data
  quickLoop bs dirty buffer blocks 0 file

theorem quickTable_eq (junk : Nat → UInt8) (t : AllocTable) (dirty : List Nat) (blocks : List Nat) (file : Bytes) (bs : Nat) :
    quickTable junk t dirty blocks file bs = t.flush junk dirty blocks file bs := by
  unfold quickTable AllocTable.flush AllocTable.save
  simp only [quickWords_eq, quickLoop_eq]

/-- `Header.save` without the words behind. -/
def Header.front (h : Header) (m : Mem) : Res Mem := do
  let m ← mwr m 0 (List.replicate 0x4c (some 0))
  let m ← mwr m 0 (pole_magic.map some)
  let m ← writeU32 m 8 0
  let m ← writeU32 m 12 0
  let m ← writeU32 m 16 0
  let m ← writeU16 m 24 0x003e
  let m ← writeU16 m 26 3
  let m ← writeU16 m 28 0xfffe
  let m ← writeU16 m 0x1e (u32 h.b_shift)
  let m ← writeU16 m 0x20 (u32 h.s_shift)
  let m ← writeU32 m 0x2c (u32 h.num_bat)
  let m ← writeU32 m 0x30 (u32 h.dirent_start)
  let m ← writeU32 m 0x38 (u32 h.threshold)
  let m ← writeU32 m 0x3c (u32 h.sbat_start)
  let m ← writeU32 m 0x40 (u32 h.num_sbat)
  let m ← writeU32 m 0x44 (u32 h.mbat_start)
  let m ← writeU32 m 0x48 (u32 h.num_mbat)
  quickWords m 0x4C h.bb_blocks

theorem front_eq (h : Header) (m : Mem) : h.front m = h.save m := by
  unfold Header.front Header.save
  simp only [quickWords_eq]

/-- `Writer.flushHeader`, faster. -/
def Writer.quickHeader (w : Writer) : Res Writer :=
  if w.headerDirty then do
    let m ← w.io.header.front (newMem 512)
    let data ← quickId m 0 512
    .ok { w with headerDirty := false, io := { w.io with file := putAt w.io.file 0 data } }
  else .ok w

/-- `Writer.flushBig`, faster. -/
def Writer.quickBig (junk : Nat → UInt8) (w : Writer) : Res Writer :=
  if w.bbatDirty ≠ [] then do
    let file ← quickTable junk w.io.bbat w.bbatDirty w.bbatBlocks w.io.file w.io.bbat.blockSize
    .ok { w with bbatDirty := [], io := { w.io with file } }
  else .ok w

/-- `Writer.flushSmall`, faster. -/
def Writer.quickSmall (junk : Nat → UInt8) (w : Writer) : Res Writer :=
  if w.sbatDirty ≠ [] then do
    let blocks ← w.io.bbat.follow w.io.header.sbat_start
    let file ← quickTable junk w.io.sbat w.sbatDirty blocks w.io.file w.io.bbat.blockSize
    .ok { w with sbatDirty := [], io := { w.io with file } }
  else .ok w

/-- `Writer.flush`, faster. -/
def Writer.quick (junk : Nat → Nat → UInt8) (w : Writer) : Res Writer := do
  let w ← w.quickHeader
  let w ← w.quickBig (junk 0)
  let w ← w.quickSmall (junk 1)
  let w ← w.flushDir
  w.flushMeta (junk 2)

theorem quick_eq (junk : Nat → Nat → UInt8) (w : Writer) : w.quick junk = w.flush junk := by
  have h1 : Writer.quickHeader = Writer.flushHeader := by
    funext w; unfold Writer.quickHeader Writer.flushHeader; simp only [front_eq, quickId_eq]
  have h2 : Writer.quickBig = Writer.flushBig := by
    funext junk w; unfold Writer.quickBig Writer.flushBig; simp only [quickTable_eq]
  have h3 : Writer.quickSmall = Writer.flushSmall := by
    funext junk w; unfold Writer.quickSmall Writer.flushSmall; simp only [quickTable_eq]
  unfold Writer.quick Writer.flush
  rw [h1, h2, h3]

end Fileid.Pole
