import Verif.Lemmas.Pole

/-!
# Properties of the compound-file reader: header, tables, streams

C38 header round trip, C39/C40 sector chains, C41 table round trip, C44 stream reading.
-/

namespace Fileid.Props

open Spec Pole

/-! ## C38 -/

theorem u32_id {n : Nat} (h : n < 2 ^ 32) : u32 n = n := Nat.mod_eq_of_lt h

/-- The fields have the widths they are stored with, and the table of first sectors has its 109 slots. -/
structure Fits (h : Header) : Prop where
  b_shift : h.b_shift < 2 ^ 16
  s_shift : h.s_shift < 2 ^ 16
  num_bat : h.num_bat < 2 ^ 32
  dirent_start : h.dirent_start < 2 ^ 32
  threshold : h.threshold < 2 ^ 32
  sbat_start : h.sbat_start < 2 ^ 32
  num_sbat : h.num_sbat < 2 ^ 32
  mbat_start : h.mbat_start < 2 ^ 32
  num_mbat : h.num_mbat < 2 ^ 32
  slots : h.bb_blocks.length = 109
  blocks : ∀ b ∈ h.bb_blocks, b < 2 ^ 32

/-- C38: saving a header into its 512 bytes and loading them gives back every field and the same validity. The
saved identification is always the compound-file signature. -/
theorem C38_header_round_trip (h : Header) (hf : Fits h) (m : Mem) (hm : m.length = 512) :
    ∃ m', h.save m = .ok m' ∧ Header.load m' = .ok { h with id := pole_magic } := by
  obtain ⟨m1, e1, l1, d1, _⟩ := mwr_step m 0 (List.replicate 0x4c (some 0)) (by rw [List.length_replicate]; omega)
  obtain ⟨m2, e2, l2, _, r2⟩ := mwr_step m1 0 (pole_magic.map some) (by rw [l1, hm]; decide)
  obtain ⟨m3, e3, l3, d3, _⟩ := writeU32_step m2 8 0 (by decide) (by omega)
  obtain ⟨m4, e4, l4, d4, _⟩ := writeU32_step m3 12 0 (by decide) (by omega)
  obtain ⟨m5, e5, l5, d5, _⟩ := writeU32_step m4 16 0 (by decide) (by omega)
  obtain ⟨m6, e6, l6, d6, _⟩ := writeU16_step m5 24 0x003e (by decide) (by omega)
  obtain ⟨m7, e7, l7, d7, _⟩ := writeU16_step m6 26 3 (by decide) (by omega)
  obtain ⟨m8, e8, l8, d8, _⟩ := writeU16_step m7 28 0xfffe (by decide) (by omega)
  obtain ⟨m9, e9, l9, d9, r9⟩ := writeU16_step m8 0x1e h.b_shift hf.b_shift (by omega)
  obtain ⟨m10, e10, l10, d10, r10⟩ := writeU16_step m9 0x20 h.s_shift hf.s_shift (by omega)
  obtain ⟨m11, e11, l11, d11, r11⟩ := writeU32_step m10 0x2c h.num_bat hf.num_bat (by omega)
  obtain ⟨m12, e12, l12, d12, r12⟩ := writeU32_step m11 0x30 h.dirent_start hf.dirent_start (by omega)
  obtain ⟨m13, e13, l13, d13, r13⟩ := writeU32_step m12 0x38 h.threshold hf.threshold (by omega)
  obtain ⟨m14, e14, l14, d14, r14⟩ := writeU32_step m13 0x3c h.sbat_start hf.sbat_start (by omega)
  obtain ⟨m15, e15, l15, d15, r15⟩ := writeU32_step m14 0x40 h.num_sbat hf.num_sbat (by omega)
  obtain ⟨m16, e16, l16, d16, r16⟩ := writeU32_step m15 0x44 h.mbat_start hf.mbat_start (by omega)
  obtain ⟨m17, e17, l17, d17, r17⟩ := writeU32_step m16 0x48 h.num_mbat hf.num_mbat (by omega)
  obtain ⟨m18, e18, l18, d18, r18⟩ := writeWords_step m17 0x4c h.bb_blocks hf.blocks (by rw [hf.slots]; omega)
  refine ⟨m18, ?_, ?_⟩
  · unfold Header.save
    rw [u32_id hf.num_bat, u32_id hf.dirent_start, u32_id hf.threshold, u32_id hf.sbat_start, u32_id hf.num_sbat,
      u32_id hf.mbat_start, u32_id hf.num_mbat, u32_id (n := h.b_shift) (by have := hf.b_shift; omega),
      u32_id (n := h.s_shift) (by have := hf.s_shift; omega)]
    rw [e1, Res.bind_ok, e2, Res.bind_ok, e3, Res.bind_ok, e4, Res.bind_ok, e5, Res.bind_ok, e6, Res.bind_ok, e7,
      Res.bind_ok, e8, Res.bind_ok, e9, Res.bind_ok, e10, Res.bind_ok, e11, Res.bind_ok, e12, Res.bind_ok, e13,
      Res.bind_ok, e14, Res.bind_ok, e15, Res.bind_ok, e16, Res.bind_ok, e17, Res.bind_ok, e18]
  · have f17 : ∀ j, j < 0x4c → mrd m18 j = mrd m17 j := fun j hj => d18 j (Or.inl hj)
    have f16 : ∀ j, j < 0x48 → mrd m18 j = mrd m16 j := fun j hj => by rw [f17 j (by omega), d17 j (Or.inl hj)]
    have f15 : ∀ j, j < 0x44 → mrd m18 j = mrd m15 j := fun j hj => by rw [f16 j (by omega), d16 j (Or.inl hj)]
    have f14 : ∀ j, j < 0x40 → mrd m18 j = mrd m14 j := fun j hj => by rw [f15 j (by omega), d15 j (Or.inl hj)]
    have f13 : ∀ j, j < 0x3c → mrd m18 j = mrd m13 j := fun j hj => by rw [f14 j (by omega), d14 j (Or.inl hj)]
    have f12 : ∀ j, j < 0x38 → mrd m18 j = mrd m12 j := fun j hj => by rw [f13 j (by omega), d13 j (Or.inl hj)]
    have f11 : ∀ j, j < 0x30 → mrd m18 j = mrd m11 j := fun j hj => by rw [f12 j (by omega), d12 j (Or.inl hj)]
    have f10 : ∀ j, j < 0x2c → mrd m18 j = mrd m10 j := fun j hj => by rw [f11 j (by omega), d11 j (Or.inl hj)]
    have f9 : ∀ j, j < 0x20 → mrd m18 j = mrd m9 j := fun j hj => by rw [f10 j (by omega), d10 j (Or.inl hj)]
    have f2 : ∀ j, j < 8 → mrd m18 j = mrd m2 j := fun j hj => by
      rw [f9 j (by omega), d9 j (by omega), d8 j (by omega), d7 j (by omega), d6 j (by omega), d5 j (by omega),
        d4 j (by omega), d3 j (by omega)]
    unfold Header.load
    rw [readU16_congr fun k hk => f9 _ (by omega), r9, Res.bind_ok,
      readU16_congr fun k hk => f10 _ (by omega), r10, Res.bind_ok,
      readU32_congr (i := 0x2c) fun k hk => f11 _ (by omega), r11, Res.bind_ok,
      readU32_congr (i := 0x30) fun k hk => f12 _ (by omega), r12, Res.bind_ok,
      readU32_congr (i := 0x38) fun k hk => f13 _ (by omega), r13, Res.bind_ok,
      readU32_congr (i := 0x3c) fun k hk => f14 _ (by omega), r14, Res.bind_ok,
      readU32_congr (i := 0x40) fun k hk => f15 _ (by omega), r15, Res.bind_ok,
      readU32_congr (i := 0x44) fun k hk => f16 _ (by omega), r16, Res.bind_ok,
      readU32_congr (i := 0x48) fun k hk => f17 _ (by omega), r17, Res.bind_ok,
      readId_congr (i := 0) (n := 8) fun k hk => f2 _ (by omega), ← hf.slots, r18]
    have hid : readId m2 0 8 = .ok pole_magic := by
      have hk : ∀ k (hk : k < 8), mrd m2 k = .ok (pole_magic[k]'hk) := fun k hk => by
        have := r2 k (by simpa [pole_magic] using hk)
        rw [Nat.zero_add, List.getElem?_map, List.getElem?_eq_getElem (l := pole_magic) hk] at this
        exact mrd_of_getElem? this
      simp only [readId, Nat.zero_add, hk 0 (by omega), hk 1 (by omega), hk 2 (by omega), hk 3 (by omega),
        hk 4 (by omega), hk 5 (by omega), hk 6 (by omega), hk 7 (by omega), Res.bind_ok, Nat.reduceAdd]
      rfl
    rw [hid]
    rfl

/-- C38: so every valid header with the signature, 32-bit fields and 109 slots is restored exactly. -/
theorem C38_valid_header (h : Header) (hid : h.id = pole_magic) (hv : h.valid = true)
    (h32 : ∀ v ∈ [h.num_bat, h.dirent_start, h.sbat_start, h.num_sbat, h.mbat_start, h.num_mbat], v < 2 ^ 32)
    (hs : h.bb_blocks.length = 109) (hb : ∀ b ∈ h.bb_blocks, b < 2 ^ 32) (m : Mem) (hm : m.length = 512) :
    ∃ m', h.save m = .ok m' ∧ Header.load m' = .ok h := by
  unfold Header.valid at hv
  have hf : Fits h := by
    repeat (first | (split at hv; · cases hv))
    refine ⟨?_, ?_, h32 _ (by simp), h32 _ (by simp), ?_, h32 _ (by simp), h32 _ (by simp), h32 _ (by simp),
      h32 _ (by simp), hs, hb⟩ <;> omega
  obtain ⟨m', h1, h2⟩ := C38_header_round_trip h hf m hm
  refine ⟨m', h1, ?_⟩
  rw [h2, ← hid]

example : ∃ h : Header, Fits h ∧ h.valid = true ∧ h.num_bat = 1 ∧ h.dirent_start = 1 :=
  ⟨{ num_bat := 1, dirent_start := 1 }, by constructor <;> decide, by decide, rfl, rfl⟩

/-- C38: the fields are those of the published layout (MS-CFB 2.2). -/
theorem C38_layout (c : Bytes) (hc : 512 ≤ c.length) :
    ∃ h, Header.load ((c.take 512).map some) = .ok h ∧ At c 0 h.id ∧ h.id.length = 8 ∧
      Num c 0x1e 2 h.b_shift ∧ Num c 0x20 2 h.s_shift ∧ Num c 0x2c 4 h.num_bat ∧
      Num c 0x30 4 h.dirent_start ∧ Num c 0x38 4 h.threshold ∧ Num c 0x3c 4 h.sbat_start ∧
      Num c 0x40 4 h.num_sbat ∧ Num c 0x44 4 h.mbat_start ∧ Num c 0x48 4 h.num_mbat ∧
      h.bb_blocks.length = 109 ∧ ∀ i b, h.bb_blocks[i]? = some b → Num c (0x4C + 4 * i) 4 b := by
  have hl : (c.take 512).length = 512 := by rw [List.length_take]; omega
  have hn : ∀ off n, off + n ≤ 512 → Num c off n (leVal (((c.take 512).drop off).take n)) := fun off n hle => by
    rw [List.drop_take, List.take_take, Nat.min_eq_left (by omega)]
    exact num_of_le (by omega)
  have hw : ∃ ws : List Nat, ws.length = 109 ∧ (∀ i b, ws[i]? = some b → Num c (0x4C + 4 * i) 4 b) ∧
      readWords ((c.take 512).map some) 0x4C 109 = .ok ws := by
    have hlen : ((List.range 109).map fun i => leVal (((c.take 512).drop (0x4C + 4 * i)).take 4)).length = 109 := by simp
    have hnum : ∀ i b, ((List.range 109).map fun i => leVal (((c.take 512).drop (0x4C + 4 * i)).take 4))[i]? = some b →
        i < 109 ∧ b = leVal (((c.take 512).drop (0x4C + 4 * i)).take 4) := by
      intro i b hb
      simp only [List.getElem?_map, Option.map_eq_some_iff, List.getElem?_eq_some_iff] at hb
      obtain ⟨a, ⟨hi, rfl⟩, rfl⟩ := hb
      simp only [List.length_range] at hi
      exact ⟨hi, by simp⟩
    refine ⟨_, hlen, ?_, ?_⟩
    · intro i b hb
      obtain ⟨hi, rfl⟩ := hnum i b hb
      exact hn _ _ (by omega)
    · have := readWords_some (bs := c.take 512) (off := 0x4C)
        (ws := (List.range 109).map fun i => leVal (((c.take 512).drop (0x4C + 4 * i)).take 4)) (by rw [hlen, hl]; omega)
        (by
          intro i b hb
          obtain ⟨hi, rfl⟩ := hnum i b hb
          exact num_of_le (by rw [hl]; omega))
      rwa [hlen] at this
  obtain ⟨ws, hw1, hw2, hw3⟩ := hw
  have hid : ∀ n off, off + n ≤ 512 →
      readId ((c.take 512).map some) off n = .ok (((c.take 512).drop off).take n) := by
    intro n
    induction n with
    | zero => intro off _; rfl
    | succ n ih =>
      intro off hle
      rw [readId, mrd_some _ _ (by omega), Res.bind_ok, ih _ (by omega), Res.bind_ok,
        List.drop_eq_getElem_cons (i := off) (by omega), List.take_succ_cons]
  refine ⟨⟨((c.take 512).drop 0).take 8, leVal (((c.take 512).drop 0x1e).take 2), leVal (((c.take 512).drop 0x20).take 2), leVal (((c.take 512).drop 0x2c).take 4), leVal (((c.take 512).drop 0x30).take 4), leVal (((c.take 512).drop 0x38).take 4), leVal (((c.take 512).drop 0x3c).take 4), leVal (((c.take 512).drop 0x40).take 4), leVal (((c.take 512).drop 0x44).take 4), leVal (((c.take 512).drop 0x48).take 4), ws⟩,
    ?_, ?_, ?_, hn _ _ (by omega), hn _ _ (by omega), hn _ _ (by omega), hn _ _ (by omega),
      hn _ _ (by omega), hn _ _ (by omega), hn _ _ (by omega), hn _ _ (by omega), hn _ _ (by omega), hw1, hw2⟩
  · unfold Header.load
    rw [readU16_some _ _ (by omega), Res.bind_ok, readU16_some _ _ (by omega), Res.bind_ok,
      readU32_some _ _ (by omega), Res.bind_ok, readU32_some _ _ (by omega), Res.bind_ok,
      readU32_some _ _ (by omega), Res.bind_ok, readU32_some _ _ (by omega), Res.bind_ok,
      readU32_some _ _ (by omega), Res.bind_ok, readU32_some _ _ (by omega), Res.bind_ok,
      readU32_some _ _ (by omega), Res.bind_ok, hid _ _ (by omega), Res.bind_ok, hw3, Res.bind_ok]
  · rw [List.drop_take, List.take_take, Nat.min_eq_left (by omega)]
    exact at_of_le (by omega)
  · rw [List.length_take, List.length_drop]; omega

/-! ## C39, C40 -/

/-- C39: following a chain returns its sectors in order, each once, all inside the table. -/
theorem C39_follow (t : AllocTable) (hsz : t.data.length ≤ 0xfffffffc) (s : Nat) (sectors : List Nat)
    (h : Chain t.data s sectors) :
    t.follow s = .ok sectors ∧ sectors.Nodup ∧ ∀ x ∈ sectors, x < t.data.length :=
  ⟨follow_chain hsz h, chain_nodup h, chain_lt h⟩

/-- C39: a start outside the table (in particular the end mark) stands for an empty chain, and nothing else than
a chain is ever returned. -/
theorem C39_only_chains (t : AllocTable) (hsz : t.data.length ≤ 0xfffffffc) (s : Nat) (sectors : List Nat)
    (h : t.follow s = .ok sectors) :
    (t.data.length ≤ s ∧ sectors = []) ∨ Chain t.data s sectors := by
  by_cases hs : t.data.length ≤ s
  · rw [follow_outside hs] at h
    cases h
    exact Or.inl ⟨hs, rfl⟩
  · right
    have h' := h
    unfold AllocTable.follow AllocTable.count at h'
    rw [if_neg hs] at h'
    rcases followLoop_cases hsz (t.data.length + 1) s [] (by omega) with ⟨l, hc, _⟩ | hf
    · rw [follow_chain hsz hc] at h
      cases h
      exact hc
    · rw [hf] at h'; cases h'

example : Chain [2, 0xfffffffe, 3, 0xfffffffe] 0 [0, 2, 3] :=
  .next rfl (by decide) (.next rfl (by decide) (.last rfl (by decide)))

/-- C40 is false: in this table sector 0 leads to 1 and 1 to 0; no number of steps is enough. -/
theorem C40_false : ∀ budget, followLoop [1, 0] budget 0 [] = .fuel := by
  have : ∀ budget p acc, p < 2 → followLoop [1, 0] budget p acc = .fuel := by
    intro budget
    induction budget with
    | zero => intro p acc _; rfl
    | succ f ih =>
      intro p acc hp
      match p, hp with
      | 0, _ => exact ih 1 _ (by decide)
      | 1, _ => exact ih 0 _ (by decide)
  exact fun b => this b 0 [] (by decide)

/-- C40: following ends exactly when the table holds a chain from the start sector on, that is when the walk
does not return to a sector it has seen. Missing for the full property: tables with a cycle, for which it is
false. -/
theorem C40_terminates_iff_partial (t : AllocTable) (hsz : t.data.length ≤ 0xfffffffc) (s : Nat)
    (hs : s < t.data.length) :
    (∃ budget r, followLoop t.data budget s [] = .ok r) ↔ ∃ sectors, Chain t.data s sectors := by
  constructor
  · rintro ⟨b, r, h⟩
    rcases followLoop_cases hsz b s [] hs with ⟨l, hc, _⟩ | hf
    · exact ⟨l, hc⟩
    · rw [hf] at h; cases h
  · rintro ⟨l, hc⟩
    exact ⟨l.length, _, followLoop_chain hsz hc _ _ (Nat.le_refl _)⟩

/-- C40: one step for every sector of the table is enough, so running out of the model's budget means that the
loop never ends. -/
theorem C40_budget_partial (t : AllocTable) (hsz : t.data.length ≤ 0xfffffffc) (s : Nat)
    (h : t.follow s = .fuel) : ∀ budget, followLoop t.data budget s [] = .fuel := by
  intro b
  have hs : s < t.data.length := by
    apply Decidable.byContradiction
    intro hc
    rw [follow_outside (by omega)] at h
    cases h
  rcases followLoop_cases hsz b s [] hs with ⟨l, hc, _⟩ | hf
  · rw [follow_chain hsz hc] at h; cases h
  · exact hf

example : AllocTable.follow { data := [1, 0] } 0 = .fuel := by decide

/-! ## C41 -/

/-- C41: a saved table loads back, whatever table object it is loaded into. -/
theorem C41_table_round_trip (t t' : AllocTable) (h : ∀ w ∈ t.data, w < 2 ^ 32) (m : Mem)
    (hm : m.length = 4 * t.count) :
    ∃ m' t'', t.save m = .ok m' ∧ m'.length = m.length ∧ t'.load m' m'.length = .ok t'' ∧ t''.data = t.data ∧
      t''.blockSize = t'.blockSize := by
  unfold AllocTable.count at hm
  obtain ⟨m', h1, h2, _, h4⟩ := writeWords_step m 0 t.data h (by omega)
  refine ⟨m', { t' with data := t.data, bMaybeFragmented := t'.bMaybeFragmented || t.data.any (· == Avail) }, h1, h2,
    ?_, rfl, rfl⟩
  unfold AllocTable.load
  rw [h2, hm, Nat.mul_div_cancel_left _ (by omega), h4]
  rfl

/-- C41: the words of the saved table are the slots in order, little endian. -/
theorem C41_layout (t : AllocTable) (h : ∀ w ∈ t.data, w < 2 ^ 32) (m : Mem) (hm : m.length = 4 * t.count) :
    ∃ bs, t.save m = .ok (bs.map some) ∧ Words bs t.data := by
  refine ⟨wordBytes t.data, ?_, wordBytes_words _ h⟩
  have := writeWords_eq [] m [] t.data hm h
  simpa [AllocTable.save] using this

example : AllocTable.save { data := [1, 0xfffffffe] } (newMem 8) =
    .ok (([1, 0, 0, 0, 0xfe, 0xff, 0xff, 0xff] : Bytes).map some) := by decide

/-- C41: loading a table from bytes gives the words of the bytes. -/
theorem C41_load (t : AllocTable) (bs : Bytes) (ws : List Nat) (h : Words bs ws) :
    ∃ t', t.load (bs.map some) bs.length = .ok t' ∧ t'.data = ws ∧ t'.blockSize = t.blockSize := by
  refine ⟨{ t with data := ws, bMaybeFragmented := t.bMaybeFragmented || ws.any (· == Avail) }, ?_, rfl, rfl⟩
  unfold AllocTable.load
  rw [h.1, Nat.mul_div_cancel_left _ (by omega),
    readWords_some (off := 0) (by rw [h.1]; omega) (fun i w hw => by simpa using h.2 i w hw)]
  rfl

/-! ## C44 -/

/-- C44: a large stream whose sectors are all present. Reading `maxlen` bytes from position `pos` gives the bytes
from `pos` on, up to the end of the stream, and leaves the rest of the buffer alone. -/
theorem C44_read_large_partial (io : StorageIO) (s : StreamIO) (content : Bytes)
    (hbig : io.header.threshold ≤ s.entry.size)
    (hbs : 0 < io.bbat.blockSize) (hbs64 : io.bbat.blockSize < 2 ^ 64)
    (hc : Content io.file io.bbat.blockSize s.blocks content) (hsize : s.entry.size ≤ content.length)
    (pos maxlen : Nat) (data : Mem) (hpos : pos ≤ s.entry.size) (h64 : pos + maxlen < 2 ^ 64)
    (hs64 : s.entry.size < 2 ^ 64) (hd : maxlen ≤ data.length) :
    ∃ n, n = min maxlen (s.entry.size - pos) ∧
      s.readAt io pos data maxlen = .ok (n, ((content.drop pos).take n).map some ++ data.drop n) := by
  obtain ⟨chunks, hcl, hfl, hch⟩ := content_chunks hc
  refine ⟨_, rfl, ?_⟩
  unfold StreamIO.readAt
  by_cases h0 : maxlen = 0
  · rw [if_pos h0, h0]; simp
  · rw [if_neg h0]
    have hm : (if u64 (pos + maxlen) > s.entry.size then sub64 s.entry.size pos else maxlen) =
        min maxlen (s.entry.size - pos) := by
      have e1 : u64 (pos + maxlen) = pos + maxlen := Nat.mod_eq_of_lt h64
      have e2 : sub64 s.entry.size pos = s.entry.size - pos := by unfold sub64; omega
      rw [e1, e2]
      split <;> omega
    have hsm : decide (s.entry.size < io.header.threshold) = false := by simp; omega
    simp only [hm, hsm, Bool.false_eq_true, ↓reduceIte]
    split
    · rename_i hge
      have hlen := content_length hc
      have h1 : content.length ≤ pos := by
        rw [hlen]
        have := Nat.div_add_mod pos io.bbat.blockSize
        have h2 := Nat.mul_le_mul_right io.bbat.blockSize hge
        rw [Nat.mul_comm] at this
        omega
      have : min maxlen (s.entry.size - pos) = 0 := by omega
      rw [this]
      simp
    · have := readLoop_at hbs (load := fun b buf => loadBigBlock io.file io.bbat.blockSize b buf io.bbat.blockSize)
        hcl (fun i b c hb hc' => ⟨(hch i b c hb hc').2, fun m hm => loadBigBlock_sector (hch i b c hb hc') hm hbs64⟩)
        pos (min maxlen (s.entry.size - pos)) data (by omega) (by rw [hfl]; omega)
      rw [hfl] at this
      exact this

/-- C67: the same for a small stream, whose mini sectors are pieces of the mini stream. -/
theorem C67_read_small_partial (io : StorageIO) (s : StreamIO) (mini content : Bytes)
    (hsmall : s.entry.size < io.header.threshold)
    (hms : 0 < io.sbat.blockSize) (hbs : 0 < io.bbat.blockSize) (hbs64 : io.bbat.blockSize < 2 ^ 64)
    (hdiv : io.sbat.blockSize ∣ io.bbat.blockSize)
    (hmini : Content io.file io.bbat.blockSize io.sb_blocks mini)
    (hc : MiniContent mini io.sbat.blockSize s.blocks content) (hsize : s.entry.size ≤ content.length)
    (pos maxlen : Nat) (data : Mem) (hpos : pos ≤ s.entry.size) (h64 : pos + maxlen < 2 ^ 64)
    (hs64 : s.entry.size < 2 ^ 64) (hd : maxlen ≤ data.length) :
    ∃ n, n = min maxlen (s.entry.size - pos) ∧
      s.readAt io pos data maxlen = .ok (n, ((content.drop pos).take n).map some ++ data.drop n) := by
  obtain ⟨chunks, hcl, hfl, hch⟩ := mini_chunks hc
  have hlen : content.length = s.blocks.length * io.sbat.blockSize := by
    rw [← hfl, hcl]
    apply flatten_length_const
    intro c hc
    obtain ⟨i, hi, rfl⟩ := List.getElem_of_mem hc
    exact (hch i (s.blocks[i]'(by omega)) chunks[i] (List.getElem?_eq_getElem _) (List.getElem?_eq_getElem _)).2
  refine ⟨_, rfl, ?_⟩
  unfold StreamIO.readAt
  by_cases h0 : maxlen = 0
  · rw [if_pos h0, h0]; simp
  · rw [if_neg h0]
    have hm : (if u64 (pos + maxlen) > s.entry.size then sub64 s.entry.size pos else maxlen) =
        min maxlen (s.entry.size - pos) := by
      have e1 : u64 (pos + maxlen) = pos + maxlen := Nat.mod_eq_of_lt h64
      have e2 : sub64 s.entry.size pos = s.entry.size - pos := by unfold sub64; omega
      rw [e1, e2]
      split <;> omega
    have hsm : decide (s.entry.size < io.header.threshold) = true := by simp; omega
    simp only [hm, hsm, ↓reduceIte]
    split
    · rename_i hge
      have h1 : content.length ≤ pos := by
        rw [hlen]
        have := Nat.div_add_mod pos io.sbat.blockSize
        have h2 := Nat.mul_le_mul_right io.sbat.blockSize hge
        rw [Nat.mul_comm] at this
        omega
      have : min maxlen (s.entry.size - pos) = 0 := by omega
      rw [this]
      simp
    · have := readLoop_at hms (load := fun b buf => loadSmallBlock io b buf io.bbat.blockSize)
        hcl (fun i b c hb hc' => ⟨(hch i b c hb hc').2, fun m hm =>
          loadSmallBlock_mini hbs64 hms hdiv hbs hmini (hch i b c hb hc').1 (hch i b c hb hc').2 hm⟩)
        pos (min maxlen (s.entry.size - pos)) data (by omega) (by rw [hfl]; omega)
      rw [hfl] at this
      exact this

end Fileid.Props
