import Verif.Lemmas.PoleFlush

/-!
# Lemmas about a storage that was flushed and is opened again
-/

namespace Fileid.Pole

open Spec Props

/-! ## The header -/

/-- The first `n` bytes are initialised. -/
def FullTo (n : Nat) (m : Mem) : Prop := ∃ (b : Bytes) (r : Mem), b.length = n ∧ m = b.map some ++ r

theorem fullTo_mwr {n : Nat} {m m' : Mem} {i : Nat} {bs : Bytes} (h : mwr m i (bs.map some) = .ok m') (hi : i + bs.length ≤ n)
    (hm : FullTo n m) : FullTo n m' := by
  obtain ⟨b, r, hb, rfl⟩ := hm
  unfold mwr at h
  split at h
  · injection h with h
    subst h
    refine ⟨b.take i ++ bs ++ b.drop (i + bs.length), r, by simp; omega, ?_⟩
    rw [List.length_map, List.take_append_of_le_length (by rw [List.length_map]; omega),
      List.drop_append_of_le_length (by rw [List.length_map]; omega)]
    simp
  · cases h

theorem fullTo_u16 {n : Nat} {m m' : Mem} {i v : Nat} (h : writeU16 m i v = .ok m') (hi : i + 2 ≤ n) (hm : FullTo n m) : FullTo n m' :=
  fullTo_mwr (by rw [← writeU16_eq]; exact h) (by simpa [leBytes_length] using hi) hm

theorem fullTo_u32 {n : Nat} {m m' : Mem} {i v : Nat} (h : writeU32 m i v = .ok m') (hi : i + 4 ≤ n) (hm : FullTo n m) : FullTo n m' :=
  fullTo_mwr (by rw [← writeU32_eq]; exact h) (by simpa [leBytes_length] using hi) hm

theorem u16_length {m m' : Mem} {i v : Nat} (h : writeU16 m i v = .ok m') : m'.length = m.length := mwr_length (by rw [← writeU16_eq]; exact h)

theorem u32_length {m m' : Mem} {i v : Nat} (h : writeU32 m i v = .ok m') : m'.length = m.length := mwr_length (by rw [← writeU32_eq]; exact h)

theorem save_full {h : Header} (hb : h.bb_blocks.length = 109) (hv : ∀ b ∈ h.bb_blocks, b < 2 ^ 32) {m' : Mem}
    (hs : h.save (newMem 512) = .ok m') : ∃ bytes : Bytes, m' = bytes.map some ∧ bytes.length = 512 := by
  unfold Header.save at hs
  obtain ⟨m1, h1, hs⟩ := bind_inv hs
  obtain ⟨m2, h2, hs⟩ := bind_inv hs
  obtain ⟨m3, h3, hs⟩ := bind_inv hs
  obtain ⟨m4, h4, hs⟩ := bind_inv hs
  obtain ⟨m5, h5, hs⟩ := bind_inv hs
  obtain ⟨m6, h6, hs⟩ := bind_inv hs
  obtain ⟨m7, h7, hs⟩ := bind_inv hs
  obtain ⟨m8, h8, hs⟩ := bind_inv hs
  obtain ⟨m9, h9, hs⟩ := bind_inv hs
  obtain ⟨m10, h10, hs⟩ := bind_inv hs
  obtain ⟨m11, h11, hs⟩ := bind_inv hs
  obtain ⟨m12, h12, hs⟩ := bind_inv hs
  obtain ⟨m13, h13, hs⟩ := bind_inv hs
  obtain ⟨m14, h14, hs⟩ := bind_inv hs
  obtain ⟨m15, h15, hs⟩ := bind_inv hs
  obtain ⟨m16, h16, hs⟩ := bind_inv hs
  obtain ⟨m17, h17, hs⟩ := bind_inv hs
  have f1 : FullTo 0x4c m1 := by
    unfold mwr at h1
    rw [if_pos (by rw [List.length_replicate, newMem, List.length_replicate]; decide)] at h1
    injection h1 with h1
    subst h1
    rw [List.take_zero, List.nil_append]
    exact ⟨List.replicate 0x4c 0, List.drop (0 + (List.replicate 0x4c (some (0 : UInt8))).length) (newMem 512), List.length_replicate,
      by rw [List.map_replicate]⟩
  have f2 := fullTo_mwr h2 (by decide) f1
  have f3 := fullTo_u32 h3 (by decide) f2
  have f4 := fullTo_u32 h4 (by decide) f3
  have f5 := fullTo_u32 h5 (by decide) f4
  have f6 := fullTo_u16 h6 (by decide) f5
  have f7 := fullTo_u16 h7 (by decide) f6
  have f8 := fullTo_u16 h8 (by decide) f7
  have f9 := fullTo_u16 h9 (by decide) f8
  have f10 := fullTo_u16 h10 (by decide) f9
  have f11 := fullTo_u32 h11 (by decide) f10
  have f12 := fullTo_u32 h12 (by decide) f11
  have f13 := fullTo_u32 h13 (by decide) f12
  have f14 := fullTo_u32 h14 (by decide) f13
  have f15 := fullTo_u32 h15 (by decide) f14
  have f16 := fullTo_u32 h16 (by decide) f15
  have f17 := fullTo_u32 h17 (by decide) f16
  have hlen : m17.length = 512 := by
    have e1 := mwr_length h1
    have e2 := mwr_length h2
    have e3 := u32_length h3
    have e4 := u32_length h4
    have e5 := u32_length h5
    have e6 := u16_length h6
    have e7 := u16_length h7
    have e8 := u16_length h8
    have e9 := u16_length h9
    have e10 := u16_length h10
    have e11 := u32_length h11
    have e12 := u32_length h12
    have e13 := u32_length h13
    have e14 := u32_length h14
    have e15 := u32_length h15
    have e16 := u32_length h16
    have e17 := u32_length h17
    rw [newMem, List.length_replicate] at e1
    omega
  obtain ⟨b, r, hbl, rfl⟩ := f17
  have hr : r.length = 436 := by simp at hlen; omega
  have hw := writeWords_eq (b.map some) r [] h.bb_blocks (by rw [hr, hb]) hv
  rw [List.append_nil, List.append_nil, List.length_map, hbl] at hw
  rw [hw] at hs
  injection hs with hs
  refine ⟨b ++ wordBytes h.bb_blocks, by rw [← hs]; simp, ?_⟩
  rw [List.length_append, wordBytes_length, hb, hbl]

/-! ## The parts of a flush -/

theorem flushHeader_spec (w : Writer) (hd : w.headerDirty = true) (hid : w.io.header.id = pole_magic) (hv : w.io.header.valid = true)
    (h32 : ∀ v ∈ [w.io.header.num_bat, w.io.header.dirent_start, w.io.header.sbat_start, w.io.header.num_sbat, w.io.header.mbat_start,
      w.io.header.num_mbat], v < 2 ^ 32)
    (hs : w.io.header.bb_blocks.length = 109) (hb : ∀ b ∈ w.io.header.bb_blocks, b < 2 ^ 32) :
    ∃ file, w.flushHeader = .ok { w with headerDirty := false, io := { w.io with file } } ∧ 512 ≤ file.length ∧
      Header.load ((file.take 512).map some) = .ok w.io.header ∧ w.io.file.length ≤ file.length ∧
      ∀ a v, 512 ≤ a → w.io.file[a]? = some v → file[a]? = some v := by
  obtain ⟨m, h1, h2⟩ := C38_valid_header w.io.header hid hv h32 hs hb (newMem 512) List.length_replicate
  obtain ⟨bytes, rfl, hl⟩ := save_full hs hb h1
  refine ⟨putAt w.io.file 0 bytes, ?_, ?_, ?_, ?_, ?_⟩
  · unfold Writer.flushHeader
    rw [if_pos hd, h1, Res.bind_ok]
    rw [readId_some bytes 512 0 (by omega), Res.bind_ok, List.drop_zero, ← hl, List.take_length]
  · rw [putAt_length]; omega
  · have : (putAt w.io.file 0 bytes).take 512 = bytes := by
      apply List.ext_getElem?
      intro a
      rw [List.getElem?_take]
      split
      · have := putAt_in (file := w.io.file) (pos := 0) (bs := bytes) (k := a) (by omega)
        rw [Nat.zero_add] at this
        exact this
      · rw [List.getElem?_eq_none (by omega)]
    rw [this]
    exact h2
  · rw [putAt_length]; omega
  · intro a v ha h
    exact putAt_out h (by omega)

theorem flushBig_spec (w : Writer) (junk : Nat → UInt8) (hv : ∀ v ∈ w.io.bbat.data, v < 2 ^ 32)
    (hl : w.io.bbat.data.length ≤ 128 * w.bbatBlocks.length) (hnd : w.bbatBlocks.Nodup) (hbs : w.io.bbat.blockSize = 512) :
    ∃ (file bytes : Bytes), w.flushBig junk = .ok { w with bbatDirty := [], io := { w.io with file } } ∧ Beside w.io.file file (dirtyOf w.bbatDirty w.bbatBlocks 0) ∧
      bytes.length = 512 * w.bbatBlocks.length ∧
      (∀ x v, w.io.bbat.data[x]? = some v → Num bytes (4 * x) 4 v) ∧
      ∀ j b k, w.bbatBlocks[j]? = some b → j ∈ w.bbatDirty → k < 512 → file[512 * (b + 1) + k]? = bytes[512 * j + k]? := by
  obtain ⟨file, bytes, h1, h2, h5, h3, h4⟩ := flushTable_spec w.io.bbat junk w.bbatDirty w.bbatBlocks w.io.file hv hl hnd
  unfold Writer.flushBig
  by_cases hd : w.bbatDirty = []
  · rw [if_neg (by simpa using hd)]
    refine ⟨w.io.file, bytes, ?_, Beside.refl _ _, h5, h3, fun j b k _ hj => ?_⟩
    · rw [← hd]
    · rw [hd] at hj; cases hj
  · rw [if_pos hd, hbs, h1, Res.bind_ok]
    exact ⟨file, bytes, rfl, h2, h5, h3, h4⟩

theorem flushSmall_spec (w : Writer) (junk : Nat → UInt8) (blocks : List Nat) (hb : w.io.bbat.follow w.io.header.sbat_start = .ok blocks)
    (hv : ∀ v ∈ w.io.sbat.data, v < 2 ^ 32)
    (hl : w.io.sbat.data.length ≤ 128 * blocks.length) (hnd : blocks.Nodup) (hbs : w.io.bbat.blockSize = 512) :
    ∃ (file bytes : Bytes), w.flushSmall junk = .ok { w with sbatDirty := [], io := { w.io with file } } ∧ Beside w.io.file file (dirtyOf w.sbatDirty blocks 0) ∧
      bytes.length = 512 * blocks.length ∧
      (∀ x v, w.io.sbat.data[x]? = some v → Num bytes (4 * x) 4 v) ∧
      ∀ j b k, blocks[j]? = some b → j ∈ w.sbatDirty → k < 512 → file[512 * (b + 1) + k]? = bytes[512 * j + k]? := by
  obtain ⟨file, bytes, h1, h2, h5, h3, h4⟩ := flushTable_spec w.io.sbat junk w.sbatDirty blocks w.io.file hv hl hnd
  unfold Writer.flushSmall
  by_cases hd : w.sbatDirty = []
  · rw [if_neg (by simpa using hd)]
    refine ⟨w.io.file, bytes, ?_, Beside.refl _ _, h5, h3, fun j b k _ hj => ?_⟩
    · rw [← hd]
    · rw [hd] at hj; cases hj
  · rw [if_pos hd, hb, Res.bind_ok, hbs, h1, Res.bind_ok]
    exact ⟨file, bytes, rfl, h2, h5, h3, h4⟩

/-- Entry `e` is in the buffer at `p`, as far as it is in use: start and size of a storage do not matter. -/
def EntryKept (m : Mem) (p : Nat) (e : DirEntry) : Prop := mrd m (p + 0x42) = .ok (typeOf e) ∧
  (e.valid = true → ∃ start size, Stored m p { e with start, size } (typeOf e) ∧ (e.dir = false → start = e.start ∧ size = e.size))

/-- The root is in the buffer at `p`, with the start of the mini stream. Its size does not matter. -/
def RootKept (m : Mem) (p child : Nat) (sb : List Nat) : Prop := ∃ start size, Begins start sb ∧ Stored m p (rootEntry child start size) 5

theorem kept_stored {m : Mem} {p : Nat} {e : DirEntry} (h : Stored m p e.tidied (typeOf e)) : EntryKept m p e := by
  refine ⟨h.type, fun _ => ⟨e.tidied.start, e.tidied.size, ?_, ?_⟩⟩
  · have : { e with start := e.tidied.start, size := e.tidied.size } = e.tidied := by unfold DirEntry.tidied; split <;> rfl
    rw [this]
    exact h
  · intro hd
    unfold DirEntry.tidied
    rw [if_neg (by rw [hd]; simp)]
    exact ⟨rfl, rfl⟩

theorem kept_tidied {m : Mem} {p : Nat} {e : DirEntry} (h : EntryKept m p e) : EntryKept m p e.tidied := by
  unfold DirEntry.tidied
  split
  · rename_i hd
    refine ⟨h.1, fun hv => ?_⟩
    obtain ⟨st, sz, h1, _⟩ := h.2 hv
    exact ⟨st, sz, h1, fun h' => (by rw [show e.dir = false from h'] at hd; cases hd)⟩
  · exact h

theorem entryKept_congr {m m' : Mem} {p p' : Nat} {e : DirEntry} (h : EntryKept m p e) (hs : ∀ k, k < 128 → mrd m' (p' + k) = mrd m (p + k)) : EntryKept m' p' e := by
  refine ⟨by rw [hs _ (by decide)]; exact h.1, fun hv => ?_⟩
  obtain ⟨st, sz, h1, h2⟩ := h.2 hv
  exact ⟨st, sz, stored_congr h1 hs, h2⟩

theorem entryKept_file {f f' : Bytes} {p : Nat} {e : DirEntry} (h : EntryKept (f.map some) p e)
    (hs : ∀ k u, k < 128 → f[p + k]? = some u → f'[p + k]? = some u) : EntryKept (f'.map some) p e := by
  refine ⟨?_, fun hv => ?_⟩
  · have h1 := h.1
    unfold mrd at h1 ⊢
    rw [List.getElem?_map] at h1 ⊢
    cases hf : f[p + 0x42]? with
    | none => rw [hf] at h1; cases h1
    | some x =>
      rw [hf] at h1
      rw [hs 0x42 x (by decide) hf]
      exact h1
  · obtain ⟨st, sz, h1, h2⟩ := h.2 hv
    exact ⟨st, sz, stored_file h1 hs, h2⟩

theorem begins_getD (sb : List Nat) : Begins (sb.head?.getD 0xffffffff) sb := by
  cases sb with
  | nil => exact Or.inl ⟨rfl, by decide⟩
  | cons x l => exact Or.inr rfl

/-- What the last flush has put into the file. -/
structure Disk (old : Snap) : Prop where
  header : ∀ h, old.header = some h → 512 ≤ old.file.length ∧ Header.load ((old.file.take 512).map some) = .ok h
  fat : ∀ x v, old.bbat x = some v → ∃ b, old.fat[x / 128]? = some b ∧ Num old.file (512 * (b + 1) + 4 * (x % 128)) 4 v
  mini : ∀ x v, old.sbat x = some v → ∃ b, old.mini[x / 128]? = some b ∧ Num old.file (512 * (b + 1) + 4 * (x % 128)) 4 v
  tree : ∀ i e, 0 < i → old.tree i = some e →
    ∃ b, old.dirs[i / 4]? = some b ∧ EntryKept (old.file.map some) (512 * (b + 1) + 128 * (i % 4)) e
  root : ∀ r sb, old.tree 0 = some r → old.sb = some sb → ∃ b, old.dirs[0]? = some b ∧
    RootKept (old.file.map some) (512 * (b + 1)) r.child sb

theorem disk_none : Disk {} :=
  ⟨fun _ h => (by cases h), fun _ _ h => (by cases h), fun _ _ h => (by cases h), fun _ _ _ h => (by cases h), fun _ _ h => (by cases h)⟩

/-- What a flush has put into the file. -/
structure OnDisk (w : Writer) (own : Owner → List Nat) (file : Bytes) : Prop where
  length : 512 ≤ file.length
  header : Header.load ((file.take 512).map some) = .ok w.io.header
  fat : ∀ x v, Used w.io.bbat.data x → x ∉ fatSectors w → w.io.bbat.data[x]? = some v →
    ∃ b, (fatSectors w)[x / 128]? = some b ∧ Num file (512 * (b + 1) + 4 * (x % 128)) 4 v
  miniFat : ∀ x v, Used w.io.sbat.data x → w.io.sbat.data[x]? = some v →
    ∃ b, (own .miniFat)[x / 128]? = some b ∧ Num file (512 * (b + 1) + 4 * (x % 128)) 4 v
  tree : ∀ i e, 0 < i → w.io.dirtree[i]? = some e →
    ∃ b, (own .dir)[i / 4]? = some b ∧ EntryKept (file.map some) (512 * (b + 1) + 128 * (i % 4)) e
  root : ∀ r, w.io.dirtree[0]? = some r → ∃ b, (own .dir)[0]? = some b ∧
    RootKept (file.map some) (512 * (b + 1)) r.child w.io.sb_blocks
  same : ∀ a v, 512 ≤ a → w.io.file[a]? = some v → (∀ b ∈ fatSectors w ++ own .miniFat ++ own .dir, a < 512 * (b + 1) ∨ 512 * (b + 2) ≤ a) →
    file[a]? = some v

/-- Sector `b` is not among the blocks, so its bytes stay. -/
theorem Beside.sector {file file' : Bytes} {blocks : List Nat} (h : Beside file file' blocks) {b k : Nat} (hk : k < 512) (hb : b ∉ blocks)
    {v : UInt8} (hv : file[512 * (b + 1) + k]? = some v) : file'[512 * (b + 1) + k]? = some v :=
  h.same _ v hv fun b' hb' => other_block hk fun e => hb (e ▸ hb')

theorem prefix_get {l l' : List Nat} (h : l <+: l') {i b : Nat} (hb : l[i]? = some b) : l'[i]? = some b := by
  obtain ⟨t, rfl⟩ := h
  rw [List.getElem?_append_left (List.getElem?_eq_some_iff.1 hb).1]
  exact hb

/-- A block that is not marked is not written. -/
theorem not_dirty {dirty blocks : List Nat} (hnd : blocks.Nodup) {j b : Nat} (hj : blocks[j]? = some b) (hd : j ∉ dirty) : b ∉ dirtyOf dirty blocks 0 := by
  intro h
  obtain ⟨i, h1, h2⟩ := mem_dirtyOf h
  rw [Nat.zero_add] at h2
  have := (List.getElem?_inj (List.getElem?_eq_some_iff.1 h1).1 hnd).1 (h1.trans hj.symm)
  exact hd (this ▸ h2)

/-- The header, changed or not. -/
theorem flushHeader_any {old : Snap} {w : Writer} (hold : Disk old) (hk : KeptFile old w.io.file)
    (hd : w.headerDirty = true ∨ old.header = some w.io.header) (hid : w.io.header.id = pole_magic) (hv : w.io.header.valid = true)
    (h32 : ∀ v ∈ [w.io.header.num_bat, w.io.header.dirent_start, w.io.header.sbat_start, w.io.header.num_sbat, w.io.header.mbat_start,
      w.io.header.num_mbat], v < 2 ^ 32)
    (hs : w.io.header.bb_blocks.length = 109) (hb : ∀ b ∈ w.io.header.bb_blocks, b < 2 ^ 32) :
    ∃ file, w.flushHeader = .ok { w with headerDirty := false, io := { w.io with file } } ∧ 512 ≤ file.length ∧
      Header.load ((file.take 512).map some) = .ok w.io.header ∧ w.io.file.length ≤ file.length ∧
      ∀ a v, 512 ≤ a → w.io.file[a]? = some v → file[a]? = some v := by
  by_cases hdt : w.headerDirty = true
  · exact flushHeader_spec w hdt hid hv h32 hs hb
  · have ho := hd.resolve_left hdt
    obtain ⟨h1, h2⟩ := hold.header _ ho
    have hkb : ∀ a, a < 512 → w.io.file[a]? = old.file[a]? := fun a ha => by
      have he := List.getElem?_eq_getElem (l := old.file) (i := a) (by omega)
      rw [he]
      exact hk a _ (Or.inl ha) he
    have hlen : 512 ≤ w.io.file.length := by
      have := hkb 511 (by decide)
      rw [List.getElem?_eq_getElem (l := old.file) (by omega)] at this
      have := (List.getElem?_eq_some_iff.1 this).1
      omega
    have htake : w.io.file.take 512 = old.file.take 512 := by
      apply List.ext_getElem?
      intro a
      rw [List.getElem?_take, List.getElem?_take]
      split
      · exact hkb a (by assumption)
      · rfl
    refine ⟨w.io.file, ?_, hlen, by rw [htake]; exact h2, Nat.le_refl _, fun a v _ h => h⟩
    unfold Writer.flushHeader
    rw [if_neg hdt]
    have : w.headerDirty = false := by simpa using hdt
    rw [← this]

/-- The writer after a flush, and what it has put into the file. -/
structure Flushed (w w' : Writer) (own : Owner → List Nat) : Prop where
  disk : OnDisk w own w'.io.file
  clean : w'.headerDirty = false ∧ w'.bbatDirty = [] ∧ w'.sbatDirty = [] ∧ w'.dirDirty = []
  tables : w'.io.header = w.io.header ∧ w'.io.bbat = w.io.bbat ∧ w'.io.sbat = w.io.sbat ∧ w'.io.sb_blocks = w.io.sb_blocks ∧
    w'.mbat_blocks = w.mbat_blocks ∧ w'.mbat_data = w.mbat_data ∧ w'.writeable = w.writeable
  dirtree : w'.io.dirtree = w.io.dirtree ∨ ∃ root es, w.io.dirtree = root :: es ∧ w'.io.dirtree = root :: es.map DirEntry.tidied

theorem flush_spec {old : Snap} {w : Writer} {L : Layout} {c : Contents} (H : Holds w L c) (hf : Fits w) (hold : Disk old) (R : Ready old w L.big)
    (hstart : w.io.header.dirent_start < 0xfffffffc) (hn : ∀ e ∈ w.io.dirtree, e.name.length ≤ 32 ∧ e.size < 2 ^ 32)
    (hlen : w.io.dirtree.length < End) (junk : Nat → Nat → UInt8) :
    ∃ w', w.flush junk = .ok w' ∧ Flushed w w' L.big := by
  obtain ⟨G, SO, DO, KF⟩ := R
  obtain ⟨e1, e2, e3, e4, e5, e6, e7, e8⟩ := G.fixed
  have few : w.io.bbat.data.length ≤ 128 * 109 := by have := G.cover; have := G.few; omega
  have small : ∀ o, ∀ x ∈ L.big o, x < w.io.bbat.data.length := fun o x hx => by
    obtain ⟨v, hv, _⟩ := linked_get (H.big.linked o (List.ne_nil_of_mem hx)) x hx
    exact (List.getElem?_eq_some_iff.1 hv).1
  have nodup : ∀ o, (L.big o).Nodup := fun o => by
    by_cases h : L.big o = []
    · rw [h]; exact List.nodup_nil
    · exact linked_nodup hf.1 (H.big.linked o h)
  have len : ∀ o, (L.big o).length ≤ w.io.bbat.data.length := fun o => nodup_length_le _ _ (nodup o) (small o)
  have hsb : w.io.header.sbat_start < 2 ^ 32 := by
    rcases H.miniFat with h | h
    · exact absurd h.1 SO.some_sbat
    · have := small .miniFat _ (List.mem_of_head? h); omega
  have hfs : fatSectors w = w.bbatBlocks := by unfold fatSectors Writer.bbatBlocks; rw [e8, List.append_nil]
  have hfl : (fatSectors w).length = w.io.header.num_bat := by
    unfold fatSectors; rw [List.length_take, G.slots]; have := G.few; omega
  obtain ⟨F0, a1, a2, a3, a4, a5⟩ := flushHeader_any hold KF G.headerDirty e6
    (by unfold Header.valid; have := G.some_bat; rw [e1, e2, e3, e4, if_neg (by omega), if_neg (by omega), if_neg (by omega), if_neg (by omega), if_neg (by omega), if_neg (by omega)])
    (by
      have := G.few
      have := SO.count
      have := len .miniFat
      simp only [List.mem_cons, List.not_mem_nil, or_false]
      rintro v (rfl | rfl | rfl | rfl | rfl | rfl) <;> first | omega | (rw [e5]; decide)) G.slots G.slotValues
  obtain ⟨F1, fb, b1, b2, b3, b4, b5⟩ := flushBig_spec { w with headerDirty := false, io := { w.io with file := F0 } } (junk 0) G.values
    (by show _ ≤ 128 * w.bbatBlocks.length; rw [← hfs, hfl]; have := G.cover; omega) (by show w.bbatBlocks.Nodup; rw [← hfs]; exact G.nodup) G.blockSize
  obtain ⟨F2, mb, c1, c2, c3, c4, c5⟩ := flushSmall_spec { w with headerDirty := false, bbatDirty := [], io := { w.io with file := F1 } } (junk 1)
    (L.big .miniFat) (follow_begins H.big hf.1 H.miniFat) SO.values (by show w.io.sbat.data.length ≤ _; rw [← SO.count]; exact SO.cover)
    (nodup _) G.blockSize
  cases ht : w.io.dirtree with
  | nil => have := DO.some_entry; rw [ht] at this; simp at this
  | cons root es =>
  have hes : ∀ e ∈ es, Small e := fun e he => by
    have hm : e ∈ w.io.dirtree := by rw [ht]; exact List.mem_cons_of_mem _ he
    obtain ⟨x1, x2, x3, x4⟩ := DO.values e hm
    exact ⟨(hn e hm).1, x1, (hn e hm).2, x2, x3, x4⟩
  have hml := len .mini
  have hroot32 := (DO.values root (by rw [ht]; exact List.mem_cons_self)).2.2.2
  have hhead : w.io.sb_blocks.head?.getD 0xffffffff < 2 ^ 32 := by
    cases hh : w.io.sb_blocks.head? with
    | none => decide
    | some x =>
      have hx := List.mem_of_head? hh
      rw [H.mini] at hx
      have := small _ _ hx
      show x < _; omega
  obtain ⟨F3, db, d1, d2, d3, d4, d5, d6⟩ := flushTree_spec root es hroot32 hes
    (w.io.sb_blocks.head?.getD 0xffffffff) (w.io.sb_blocks.length * 512) hhead
    (by rw [H.mini]; omega) w.dirDirty (L.big .dir) F2
    (by have := hlen; rw [ht, List.length_cons] at this; unfold End at this; omega)
    (fun d hd => by have := DO.inside d hd; rw [ht, List.length_cons] at this; exact this) (nodup _)
  have hdir : ∃ F3 t, Writer.flushDir { w with headerDirty := false, bbatDirty := [], sbatDirty := [], io := { w.io with file := F2 } } =
      .ok { w with headerDirty := false, bbatDirty := [], sbatDirty := [], dirDirty := [], io := { w.io with file := F3, dirtree := t } } ∧
      Beside F2 F3 (dirtyOf w.dirDirty (L.big .dir) 0) ∧
      (∀ j b k, (L.big .dir)[j]? = some b → j ∈ w.dirDirty → k < 512 → 512 * j + k < db.length → F3[512 * (b + 1) + k]? = db[512 * j + k]?) ∧
      (t = root :: es ∨ t = root :: es.map DirEntry.tidied) := by
    unfold Writer.flushDir
    by_cases hdd : w.dirDirty = []
    · refine ⟨F2, root :: es, ?_, Beside.refl _ _, fun j b k _ hj => ?_, Or.inl rfl⟩
      · dsimp only
        rw [if_neg (by rw [hdd]; simp), ← ht, ← hdd]
      · rw [hdd] at hj; cases hj
    · refine ⟨F3, root :: es.map DirEntry.tidied, ?_, d2, d6, Or.inr rfl⟩
      rw [if_pos hdd]
      dsimp only
      rw [follow_begins H.big hf.1 H.dir, Res.bind_ok, ht, G.blockSize, d1, Res.bind_ok]
  clear d1 d2 d6
  clear F3
  obtain ⟨F3, t, d1, d2, d6, ht2⟩ := hdir
  have apart1 : ∀ b ∈ fatSectors w, b ∉ dirtyOf w.sbatDirty (L.big .miniFat) 0 := fun b hb h => G.apart b hb _ (dirtyOf_mem h)
  have apart2 : ∀ b ∈ fatSectors w, b ∉ dirtyOf w.dirDirty (L.big .dir) 0 := fun b hb h => G.apart b hb _ (dirtyOf_mem h)
  have apart3 : ∀ b ∈ L.big .miniFat, b ∉ dirtyOf w.dirDirty (L.big .dir) 0 := fun b hb h => H.big.apart _ _ (by simp) b hb (dirtyOf_mem h)
  have apart4 : ∀ b ∈ L.big .miniFat, b ∉ dirtyOf w.bbatDirty (fatSectors w) 0 := fun b hb h => G.apart b (dirtyOf_mem h) _ hb
  have apart5 : ∀ b ∈ L.big .dir, b ∉ dirtyOf w.bbatDirty (fatSectors w) 0 := fun b hb h => G.apart b (dirtyOf_mem h) _ hb
  have apart6 : ∀ b ∈ L.big .dir, b ∉ dirtyOf w.sbatDirty (L.big .miniFat) 0 := fun b hb h => H.big.apart .miniFat .dir (by simp) b (dirtyOf_mem h) hb
  have head : ∀ {file file' : Bytes} {blocks : List Nat}, Beside file file' blocks → 512 ≤ file.length → file'.take 512 = file.take 512 :=
    fun {file file' blocks} hb hl => by
      apply List.ext_getElem?
      intro a
      rw [List.getElem?_take, List.getElem?_take]
      split
      · rw [List.getElem?_eq_getElem (l := file) (by omega)]
        exact hb.same a _ (List.getElem?_eq_getElem (by omega)) fun b _ => by omega
      · rfl
  have l1 := b2.length
  have l2 := c2.length
  have l3 := d2.length
  dsimp only at l1 l2 l3 b2 b5 c2 c5
  have b2' : Beside F0 F1 (dirtyOf w.bbatDirty (fatSectors w) 0) := by rw [hfs]; exact b2
  have b5' : ∀ j b k, (fatSectors w)[j]? = some b → j ∈ w.bbatDirty → k < 512 → F1[512 * (b + 1) + k]? = fb[512 * j + k]? := by rw [hfs]; exact b5
  have fromOld : ∀ {b k v}, b ∈ old.fat ++ old.mini ++ old.dirs → k < 512 → old.file[512 * (b + 1) + k]? = some v → F0[512 * (b + 1) + k]? = some v :=
    fun {b k v} hb hk hv => a5 _ v (by omega) (KF _ v (Or.inr ⟨b, hb, by omega, by omega⟩) hv)
  have OD : OnDisk w L.big F3 := by
    constructor
    · omega
    · rw [head d2 (by omega), head c2 (by omega), head b2 (by omega)]
      exact a3
    · intro x v hu hx hv
      have hxl := (List.getElem?_eq_some_iff.1 hv).1
      have after : ∀ b k u, b ∈ fatSectors w → k < 512 → F1[512 * (b + 1) + k]? = some u → F3[512 * (b + 1) + k]? = some u :=
        fun b k u hb hk h => d2.sector hk (apart2 b hb) (c2.sector hk (apart1 b hb) h)
      by_cases hd : x / 128 ∈ w.bbatDirty
      · have hj : x / 128 < (fatSectors w).length := by rw [hfl]; have := G.cover; omega
        have hb := List.getElem?_eq_getElem hj
        refine ⟨_, hb, num_file (f := F1) (num_congr (b4 x v hv) (by decide) fun k hk => ?_) (by decide) fun k u hk h => ?_⟩
        · have e : 4 * x + k = 512 * (x / 128) + (4 * (x % 128) + k) := by omega
          rw [e, Nat.add_assoc]
          exact b5' _ _ _ hb hd (by omega)
        · rw [Nat.add_assoc] at h ⊢
          exact after _ _ u (List.getElem_mem hj) (by omega) h
      · have ho : old.bbat x = w.io.bbat.data[x]? := by
          rcases G.saved x hu with h | (h | h) | h
          · exact absurd h hx
          · exact absurd h hd
          · exact h
          · cases h
        obtain ⟨b, hb, hnum⟩ := hold.fat x v (ho.trans hv)
        have hb' := prefix_get G.slotPrefix hb
        have hmem := List.mem_of_getElem? hb'
        refine ⟨b, hb', num_file hnum (by decide) fun k u hk h => ?_⟩
        rw [Nat.add_assoc] at h ⊢
        exact after _ _ u hmem (by omega) (b2'.sector (by omega) (not_dirty G.nodup hb' hd) (fromOld (by simp [List.mem_of_getElem? hb]) (by omega) h))
    · intro x v hu hv
      have hxl := (List.getElem?_eq_some_iff.1 hv).1
      by_cases hd : x / 128 ∈ w.sbatDirty
      · have hj : x / 128 < (L.big .miniFat).length := by have := SO.cover; rw [SO.count] at this; omega
        have hb := List.getElem?_eq_getElem hj
        refine ⟨_, hb, num_file (f := F2) (num_congr (c4 x v hv) (by decide) fun k hk => ?_) (by decide) fun k u hk h => ?_⟩
        · have e : 4 * x + k = 512 * (x / 128) + (4 * (x % 128) + k) := by omega
          rw [e, Nat.add_assoc]
          exact c5 _ _ _ hb hd (by omega)
        · rw [Nat.add_assoc] at h ⊢
          exact d2.sector (by omega) (apart3 _ (List.getElem_mem hj)) h
      · have ho := (SO.saved x hu).resolve_left hd
        obtain ⟨b, hb, hnum⟩ := hold.mini x v (ho.trans hv)
        have hb' := prefix_get SO.slotPrefix hb
        have hmem := List.mem_of_getElem? hb'
        refine ⟨b, hb', num_file hnum (by decide) fun k u hk h => ?_⟩
        rw [Nat.add_assoc] at h ⊢
        exact d2.sector (by omega) (apart3 b hmem) (c2.sector (by omega) (not_dirty (nodup _) hb' hd) (b2'.sector (by omega) (apart4 b hmem)
          (fromOld (by simp [List.mem_of_getElem? hb]) (by omega) h)))
    · intro i e hi he
      have hil := (List.getElem?_eq_some_iff.1 he).1
      by_cases hd : i / 4 ∈ w.dirDirty
      · have hj : i / 4 < (L.big .dir).length := by have := DO.cover; omega
        have hb := List.getElem?_eq_getElem hj
        obtain ⟨j, rfl⟩ : ∃ j, i = j + 1 := ⟨i - 1, by omega⟩
        have he' := he
        rw [ht, List.getElem?_cons_succ] at he'
        have hel := (List.getElem?_eq_some_iff.1 he').1
        refine ⟨_, hb, kept_stored (stored_congr (d5 j e he') fun k hk => ?_)⟩
        have e : 128 + 128 * j + k = 512 * ((j + 1) / 4) + (128 * ((j + 1) % 4) + k) := by omega
        unfold mrd
        rw [List.getElem?_map, List.getElem?_map, e, Nat.add_assoc, d6 _ _ _ hb hd (by omega) (by rw [d3]; omega)]
      · have ho := (DO.saved i hil).resolve_left hd
        obtain ⟨b, hb, hst⟩ := hold.tree i e hi (ho.trans he)
        have hb' := prefix_get DO.slotPrefix hb
        have hmem := List.mem_of_getElem? hb'
        refine ⟨b, hb', entryKept_file hst fun k u hk h => ?_⟩
        rw [Nat.add_assoc] at h ⊢
        exact d2.sector (by omega) (not_dirty (nodup _) hb' hd) (c2.sector (by omega) (apart6 b hmem) (b2'.sector (by omega) (apart5 b hmem)
          (fromOld (by simp [List.mem_of_getElem? hb]) (by omega) h)))
    · intro r hr
      have hr' := hr
      rw [ht] at hr'
      injection hr' with hr'
      by_cases hd : 0 ∈ w.dirDirty
      · have hj : 0 < (L.big .dir).length := by have := DO.cover; have := DO.some_entry; omega
        have hb := List.getElem?_eq_getElem hj
        refine ⟨_, hb, _, _, begins_getD _, stored_congr (hr' ▸ d4) fun k hk => ?_⟩
        unfold mrd
        have := d6 _ _ k hb hd (by omega) (by rw [d3]; omega)
        rw [Nat.mul_zero] at this
        rw [List.getElem?_map, List.getElem?_map, this]
      · have h1 := (DO.saved 0 DO.some_entry).resolve_left hd
        have h2 := DO.root.resolve_left hd
        obtain ⟨b, hb, st, sz, hbeg, hst⟩ := hold.root r _ (h1.trans hr) h2
        have hb' := prefix_get DO.slotPrefix hb
        have hmem := List.mem_of_getElem? hb'
        refine ⟨b, hb', st, sz, hbeg, stored_file hst fun k u hk h => ?_⟩
        exact d2.sector (by omega) (not_dirty (nodup _) hb' hd) (c2.sector (by omega) (apart6 b hmem) (b2'.sector (by omega) (apart5 b hmem)
          (fromOld (by simp [List.mem_of_getElem? hb]) (by omega) h)))
    · intro a v ha hv hout
      refine d2.same a v (c2.same a v (b2'.same a v (a5 a v ha hv) fun b hb => hout b ?_) fun b hb => hout b ?_) fun b hb => hout b ?_ <;>
        simp [dirtyOf_mem hb]
  refine ⟨{ w with headerDirty := false, bbatDirty := [], sbatDirty := [], dirDirty := [], io := { w.io with file := F3, dirtree := t } }, ?_,
    ⟨OD, ⟨rfl, rfl, rfl, rfl⟩, ⟨rfl, rfl, rfl, rfl, rfl, rfl, rfl⟩, ht2.elim (fun h => Or.inl (h.trans ht.symm)) fun h => Or.inr ⟨root, es, ht, h⟩⟩⟩
  unfold Writer.flush
  rw [a1, Res.bind_ok, b1, Res.bind_ok, c1, Res.bind_ok, d1, Res.bind_ok]
  unfold Writer.flushMeta
  dsimp only
  rw [if_neg (by rw [e7]; simp)]

/-! ## The file is a compound file -/

theorem table_again {blocks : List Nat} {file : Bytes} (hc : ∀ b ∈ blocks, 512 * (b + 2) ≤ file.length) :
    ∃ (content : Bytes) (ws : List Nat), Content file 512 blocks content ∧ Words content ws ∧ ws.length = 128 * blocks.length ∧
      ∀ x v b, blocks[x / 128]? = some b → Num file (512 * (b + 1) + 4 * (x % 128)) 4 v → ws[x]? = some v := by
  obtain ⟨content, h1, h2, h3⟩ := content_of blocks hc
  obtain ⟨ws, h4, h5, h6⟩ := words_of (bytes := content) (n := 128 * blocks.length) (by omega)
  refine ⟨content, ws, h1, h4, h5, fun x v b hb hv => ?_⟩
  have hj := (List.getElem?_eq_some_iff.1 hb).1
  refine h6 x v (by omega) (num_congr hv (by decide) fun k hk => ?_)
  have e : 4 * x + k = 512 * (x / 128) + (4 * (x % 128) + k) := by omega
  rw [e, h3 _ _ _ hb (by omega), Nat.add_assoc]

theorem chain_congr {fat fat' : List Nat} (hl : fat'.length ≤ 0xfffffffc) {l : List Nat} (h : Linked fat l) :
    (∀ x ∈ l, fat'[x]? = fat[x]?) → Linked fat' l := by
  induction h with
  | last h1 h2 h3 => exact fun hs => .last (by rw [hs _ (by simp)]; exact h1) h2 h3
  | next h1 h2 _ ih =>
    exact fun hs => .next (by rw [hs _ (by simp)]; exact h1) h2 (ih fun x hx => hs x (List.mem_cons_of_mem _ hx))

theorem owned_congr {ω : Type} {fat fat' : List Nat} (hl : fat'.length ≤ 0xfffffffc) {own : ω → List Nat} (h : Owned fat own)
    (hs : ∀ i, ∀ x ∈ own i, fat'[x]? = fat[x]?) : Owned fat' own :=
  ⟨fun i hi => chain_congr hl (h.linked i hi) (hs i), h.apart⟩

theorem chain_of {fat l : List Nat} {s : Nat} (hl : fat.length ≤ 0xfffffffc) (h : l ≠ [] → Linked fat l) (hb : Begins s l) : ChainOrNone fat s l := by
  rcases hb with ⟨h1, h2⟩ | h1
  · exact Or.inr ⟨by omega, h1⟩
  · have hne : l ≠ [] := by rintro rfl; cases h1
    obtain ⟨s', h2, h3⟩ := linked_chain hl (h hne)
    rw [h1] at h2
    cases h2
    exact Or.inl h3

/-- The file with what a flush has put there, read as a compound file. -/
structure Readable (w : Writer) (L : Layout) (file : Bytes) (hd : CfbHeader) (fat minifat : List Nat) (dir : Bytes) : Prop where
  image : CfbImage file hd fat minifat dir (L.big .mini)
  header : hd = ⟨9, 6, w.io.header.num_bat, w.io.header.dirent_start, 4096, w.io.header.sbat_start, w.io.header.mbat_start, 0, w.io.header.bb_blocks⟩
  shift : hd.shift = 9 ∧ hd.miniShift = 6
  fat : ∀ o, ∀ x ∈ L.big o, fat[x]? = w.io.bbat.data[x]?
  small : ∀ i, ∀ x ∈ L.small i, minifat[x]? = w.io.sbat.data[x]?
  minifatLength : minifat ≠ [] ∧ minifat.length ≤ 0xfffffffc
  dirLength : dir.length = 512 * (L.big .dir).length
  dirBytes : ∀ j b k, (L.big .dir)[j]? = some b → k < 512 → dir[512 * j + k]? = file[512 * (b + 1) + k]?
  entries : ∃ (root : DirEntry) (es : DirTree), w.io.dirtree = root :: es ∧
    RootKept (dir.map some) 0 root.child w.io.sb_blocks ∧ ∀ i e, es[i]? = some e → EntryKept (dir.map some) (128 + 128 * i) e

theorem readable_of {old : Snap} {w : Writer} {L : Layout} {c : Contents} (H : Holds w L c) (hf : Fits w) (R : Ready old w L.big) {file : Bytes}
    (hstart : w.io.header.dirent_start < 0xfffffffc) (D : OnDisk w L.big file)
    (hc : ∀ b ∈ fatSectors w ++ L.big .miniFat ++ L.big .dir, 512 * (b + 2) ≤ file.length) :
    ∃ hd fat minifat dir, Readable w L file hd fat minifat dir := by
  obtain ⟨G, SO, DO, _⟩ := R
  obtain ⟨e1, e2, e3, e4, e5, e6, e7, e8⟩ := G.fixed
  have hfl : (fatSectors w).length = w.io.header.num_bat := by
    unfold fatSectors; rw [List.length_take, G.slots]; have := G.few; omega
  have few : w.io.bbat.data.length ≤ 128 * 109 := by have := G.cover; have := G.few; omega
  have small : ∀ o, ∀ x ∈ L.big o, x < w.io.bbat.data.length := fun o x hx => by
    obtain ⟨v, hv, _⟩ := linked_get (H.big.linked o (List.ne_nil_of_mem hx)) x hx
    exact (List.getElem?_eq_some_iff.1 hv).1
  have nodup : ∀ o, (L.big o).Nodup := fun o => by
    by_cases h : L.big o = []
    · rw [h]; exact List.nodup_nil
    · exact linked_nodup hf.1 (H.big.linked o h)
  have len : ∀ o, (L.big o).length ≤ w.io.bbat.data.length := fun o => nodup_length_le _ _ (nodup o) (small o)
  obtain ⟨fc, fat, f3, f4, f5, f6⟩ := table_again (file := file) (blocks := fatSectors w) fun b hb => hc b (by simp [hb])
  obtain ⟨mc, minifat, m3, m4, m5, m6⟩ := table_again (file := file) (blocks := L.big .miniFat) fun b hb => hc b (by simp [hb])
  obtain ⟨dir, d1, d2, d3⟩ := content_of (L.big .dir) fun b hb => hc b (by simp [hb])
  have hfat : ∀ o, ∀ x ∈ L.big o, fat[x]? = w.io.bbat.data[x]? := fun o x hx => by
    have hlt := small o x hx
    have hv := List.getElem?_eq_getElem hlt
    rw [hv]
    obtain ⟨b, h1, h2⟩ := D.fat x _ (linked_used (H.big.linked o (List.ne_nil_of_mem hx)) hx) (fun h => G.apart x h o hx) hv
    exact f6 x _ b h1 h2
  have hmini : ∀ i, ∀ x ∈ L.small i, minifat[x]? = w.io.sbat.data[x]? := fun i x hx => by
    have hu := linked_used (H.small.linked i (List.ne_nil_of_mem hx)) hx
    obtain ⟨v, hv, hne⟩ := hu
    rw [hv]
    obtain ⟨b, h1, h2⟩ := D.miniFat x v ⟨v, hv, hne⟩ hv
    exact m6 x v b h1 h2
  have hlen : fat.length ≤ 0xfffffffc := by rw [f5, hfl]; have := G.few; omega
  have hlink : ∀ o, L.big o ≠ [] → Linked fat (L.big o) := fun o ho => chain_congr hlen (H.big.linked o ho) (hfat o)
  obtain ⟨hh, g0, g1, g2, g3, g4, g5, g6, g7, g8, g9, g10, g11, g12, g13⟩ := C38_layout file D.length
  have ghh : hh = w.io.header := by have := g0.symm.trans D.header; injection this
  subst ghh
  have hmrd : ∀ i b k, (L.big .dir)[i / 4]? = some b → k < 128 →
      mrd (dir.map some) (128 * i + k) = mrd (file.map some) (512 * (b + 1) + 128 * (i % 4) + k) := fun i b k hb hk => by
    have h2 := d3 _ _ (128 * (i % 4) + k) hb (by omega)
    have e : 128 * i + k = 512 * (i / 4) + (128 * (i % 4) + k) := by omega
    unfold mrd
    rw [List.getElem?_map, List.getElem?_map, e, h2, Nat.add_assoc]
  obtain ⟨root, es, t1⟩ : ∃ root es, w.io.dirtree = root :: es := by
    cases ht : w.io.dirtree with
    | nil => have := DO.some_entry; rw [ht] at this; simp at this
    | cons root es => exact ⟨root, es, rfl⟩
  obtain ⟨st, sz, hbeg, hroot⟩ : RootKept (dir.map some) 0 root.child w.io.sb_blocks := by
    obtain ⟨b, hb, st, sz, hbeg, hst⟩ := D.root root (by rw [t1]; rfl)
    exact ⟨st, sz, hbeg, stored_congr hst fun k hk => hmrd 0 b k hb hk⟩
  have hent : ∀ i e, es[i]? = some e → EntryKept (dir.map some) (128 + 128 * i) e := fun i e he => by
    obtain ⟨b, hb, hst⟩ := D.tree (i + 1) e (by omega) (by rw [t1, List.getElem?_cons_succ]; exact he)
    refine entryKept_congr hst fun k hk => ?_
    rw [show 128 + 128 * i + k = 128 * (i + 1) + k by omega]
    exact hmrd (i + 1) b k hb hk
  have hdne : L.big .dir ≠ [] := by
    intro h
    have h1 := DO.cover
    have h2 := DO.some_entry
    rw [h, List.length_nil] at h1
    omega
  refine ⟨⟨9, 6, w.io.header.num_bat, w.io.header.dirent_start, 4096, w.io.header.sbat_start, w.io.header.mbat_start, 0, w.io.header.bb_blocks⟩,
    fat, minifat, dir, ?_, rfl, ⟨rfl, rfl⟩, hfat, hmini, ⟨?_, ?_⟩, d2, d3, root, es, t1, ⟨st, sz, hbeg, hroot⟩, hent⟩
  · refine ⟨⟨?_, D.length, ?_, ?_, g5, g6, ?_, g8, g10, ?_, g12, g13⟩, ⟨rfl, G.some_bat, fun _ => rfl, ⟨by show 6 < 9; decide, by show 9 < 31; decide⟩, by show 6 ≤ 9; decide⟩,
      ⟨fatSectors w, fc, Or.inl ⟨G.few, rfl⟩, hfl, f3, f4⟩, hlen, ⟨L.big .miniFat, mc, chain_of hlen (hlink _) H.miniFat, m3, m4⟩,
      ⟨L.big .dir, ?_, d1⟩, ⟨st, ?_, chain_of hlen (hlink _) ?_⟩⟩
    · rw [e6] at g1; exact g1
    · rw [e1] at g3; exact g3
    · rw [e2] at g4; exact g4
    · rw [e3] at g7; exact g7
    · rw [e4] at g11; exact g11
    · rcases chain_of hlen (hlink .dir) H.dir with h | h
      · exact h
      · exact absurd h.2 hdne
    · have h4 : 0x74 + 4 ≤ dir.length := by rw [d2]; have := List.length_pos_iff.2 hdne; omega
      have h5 := num_of_le h4
      have h6 := (readU32_num h5).symm.trans hroot.start
      injection h6 with h6
      rw [h6] at h5
      exact h5
    · rw [← H.mini]
      exact hbeg
  · intro h
    rw [h] at m5
    have := SO.some_sbat
    have h3 := List.length_pos_iff.2 this
    simp at m5
    omega
  · rw [m5]; have := len .miniFat; omega

end Fileid.Pole
