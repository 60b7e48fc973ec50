import Verif.Lemmas.PoleCfb
import Verif.Lemmas.PoleStorable

/-!
# Lemmas about compound files that are opened, changed and flushed
-/

namespace Fileid.Pole

open Spec Props

/-- The bytes of a content are those of its sectors. -/
theorem content_byte {file : Bytes} {ss : Nat} {l : List Nat} {c : Bytes} (h : Content file ss l c) :
    ∀ j b k, l[j]? = some b → k < ss → c[ss * j + k]? = file[ss * (b + 1) + k]? := by
  induction h with
  | nil => intro j b k h; cases h
  | @cons n rest bs content hs _ ih =>
    intro j b k hj hk
    obtain ⟨ha, hl⟩ := hs
    cases j with
    | zero =>
      rw [List.getElem?_cons_zero] at hj
      cases hj
      rw [Nat.mul_zero, Nat.zero_add, List.getElem?_append_left (by omega), ← ha.getElem? k (by omega)]
    | succ j =>
      rw [List.getElem?_cons_succ] at hj
      rw [List.getElem?_append_right (by rw [hl, Nat.mul_succ]; omega), ← ih j b k hj hk, hl, Nat.mul_succ]
      congr 1
      omega

/-- A word of a table is in the file. -/
theorem word_file {file bytes : Bytes} {l ws : List Nat} (hc : Content file 512 l bytes) (hw : Words bytes ws) {x v : Nat} (hv : ws[x]? = some v) :
    ∃ b, l[x / 128]? = some b ∧ Num file (512 * (b + 1) + 4 * (x % 128)) 4 v := by
  have hlen := content_length hc
  have hx := (List.getElem?_eq_some_iff.1 hv).1
  have hwl := hw.1
  have hlt : x / 128 < l.length := by omega
  refine ⟨_, List.getElem?_eq_getElem hlt, ?_⟩
  refine num_congr (hw.2 x v hv) (by decide) fun k hk => ?_
  have := content_byte hc (x / 128) _ (4 * (x % 128) + k) (List.getElem?_eq_getElem hlt) (by omega)
  rw [Nat.add_assoc, ← this]
  congr 1
  omega

/-- An entry of the directory is in the file. -/
theorem entry_file {file dir : Bytes} {l : List Nat} (hc : Content file 512 l dir) {i : Nat} (hi : 128 * (i + 1) ≤ dir.length) :
    ∃ b, l[i / 4]? = some b ∧ ∀ k, k < 128 → mrd (file.map some) (512 * (b + 1) + 128 * (i % 4) + k) = mrd (dir.map some) (128 * i + k) := by
  have hlen := content_length hc
  have hlt : i / 4 < l.length := by omega
  refine ⟨_, List.getElem?_eq_getElem hlt, fun k hk => ?_⟩
  have := content_byte hc (i / 4) _ (128 * (i % 4) + k) (List.getElem?_eq_getElem hlt) (by omega)
  unfold mrd
  rw [List.getElem?_map, List.getElem?_map, Nat.add_assoc, ← this, show 512 * (i / 4) + (128 * (i % 4) + k) = 128 * i + k by omega]

theorem mrd_byte {bs : Bytes} {i : Nat} {b : UInt8} (h : bs[i]? = some b) : mrd (bs.map some) i = .ok b :=
  mrd_of_getElem? (by rw [List.getElem?_map, h]; rfl)

theorem num_two {c : Bytes} {off u : Nat} (h : Num c off 2 u) (hu : u < 256) : c[off]? = some (UInt8.ofNat u) ∧ c[off + 1]? = some 0 := by
  have hl := h.length_le
  have he := h.eq
  have h1 := List.getElem?_eq_getElem (l := c) (i := off) (by omega)
  have h2 := List.getElem?_eq_getElem (l := c) (i := off + 1) (by omega)
  rw [h1, h2]
  have h3 : (c.drop off).take 2 = [c[off], c[off + 1]] := by
    rw [List.drop_eq_getElem_cons (by omega), List.take_succ_cons, List.drop_eq_getElem_cons (by omega), List.take_succ_cons, List.take_zero]
  rw [h3] at he
  simp only [leVal, Nat.mul_zero, Nat.add_zero] at he
  have hb := (c[off + 1]).toNat_lt
  have ha := (c[off]).toNat_lt
  have h0 : (c[off + 1]).toNat = 0 := by omega
  have h0' : (c[off]).toNat = u := by omega
  exact ⟨by rw [← h0']; simp, by rw [show c[off + 1] = 0 from UInt8.toNat_inj.1 h0]⟩

theorem at_byte {c : Bytes} {i : Nat} {b : UInt8} : At c i [b] ↔ c[i]? = some b := by
  constructor
  · intro h
    have := h.getElem? 0 (by simp)
    simpa using this
  · intro h
    have hlt := (List.getElem?_eq_some_iff.1 h).1
    rw [at_one hlt]
    rw [List.getElem?_eq_getElem hlt] at h
    exact Option.some.inj h

/-- An entry that was stored as the library stores entries is in the buffer. -/
theorem entry_stored {dir : Bytes} {off : Nat} {e : DirEntry} {type : UInt8} (hs : EntryStored dir off e) (hv : e.valid = true)
    (hn : (∀ u ∈ e.name, u < 256) ∧ ∀ k, 2 * e.name.length ≤ k → k < 64 → dir[off + k]? = some 0) (ht : dir[off + 0x42]? = some type) :
    Stored (dir.map some) off e type := by
  obtain ⟨n1, n2, n3, n4, n5⟩ := hs.name hv
  have unit : ∀ j u, e.name[j]? = some u → dir[off + 2 * j]? = some (UInt8.ofNat u) ∧ dir[off + 2 * j + 1]? = some 0 := fun j u hj =>
    num_two (n1 j u hj) (hn.1 u (List.mem_of_getElem? hj))
  refine ⟨mrd_byte ht, readU32_num hs.fields.start, readU32_num hs.fields.size, readU32_num hs.fields.prev, readU32_num hs.fields.next,
    readU32_num hs.fields.child, ?_, fun j u hj => mrd_byte (unit j u hj).1, fun j hj => mrd_byte ?_, fun j h1 h2 => mrd_byte ?_, by omega⟩
  · rw [readU16_num n5]; congr 1; omega
  · by_cases hl : j < e.name.length
    · exact (unit j _ (List.getElem?_eq_getElem hl)).2
    · have := hn.2 (2 * j + 1) (by omega) (by omega)
      rw [← Nat.add_assoc] at this
      exact this
  · exact hn.2 (2 * j) (by omega) (by omega)

theorem actualLen_le {m : Mem} {p n : Nat} (hn : n ≤ 64) : ∀ (f a : Nat) {r : Nat}, a ≤ 64 → a % 2 = 0 → actualLen m p n f a = .ok r → r ≤ 64 := by
  intro f
  induction f with
  | zero => intro a r _ _ h; cases h
  | succ f ih =>
    intro a r ha ha2 h
    rw [actualLen] at h
    split at h
    · obtain ⟨b, _, h⟩ := bind_inv h
      split at h
      · exact ih (a + 2) (by omega) (by omega) h
      · cases h; exact ha
    · cases h; exact ha

theorem wchars_length {m : Mem} {w : Nat} (n : Nat) : ∀ {p : Nat} {us : WStr}, wchars m w p n = .ok us → us.length = n := by
  induction n with
  | zero => intro p us h; cases h; rfl
  | succ n ih =>
    intro p us h
    rw [wchars] at h
    obtain ⟨b, _, h⟩ := bind_inv h
    obtain ⟨rest, h1, h⟩ := bind_inv h
    cases h
    rw [List.length_cons, ih h1]

/-- No name that is loaded has more than 32 units. -/
theorem loadEntry_length {m : Mem} {off : Nat} {e : DirEntry} (h : loadEntry Abi.windows m off = .ok e) : e.name.length ≤ 32 := by
  unfold loadEntry at h
  obtain ⟨nl, _, h⟩ := bind_inv h
  dsimp only at h
  obtain ⟨a, h1, h⟩ := bind_inv h
  obtain ⟨n, h2, h⟩ := bind_inv h
  obtain ⟨_, _, h⟩ := bind_inv h
  obtain ⟨_, _, h⟩ := bind_inv h
  obtain ⟨_, _, h⟩ := bind_inv h
  obtain ⟨_, _, h⟩ := bind_inv h
  obtain ⟨_, _, h⟩ := bind_inv h
  obtain ⟨_, _, h⟩ := bind_inv h
  cases h
  have := actualLen_le (by split <;> omega) _ _ (by decide) (by decide) h1
  show n.length ≤ 32
  rw [wchars_length _ h2]
  omega

/-- The header that was loaded. -/
theorem Opened.fields {file : Bytes} {P : CfbParts} {f : FileMap} {io : StorageIO} (h : CfbFile file P f) (O : Opened file P io) :
    io.header.bb_blocks = P.hd.difat ∧ io.header.num_bat = P.hd.fatCount ∧ io.header.b_shift = P.hd.shift ∧ io.header.s_shift = P.hd.miniShift ∧
      io.header.num_mbat = P.hd.difatCount ∧ io.header.mbat_start = P.hd.difatStart ∧ io.header.id = pole_magic ∧
      Num file 0x40 4 io.header.num_sbat := by
  have hst := h.image.stored
  obtain ⟨hh, l0, l1, l2, l3, l4, l5, l6, l7, l8, l9, l10, l11, l12, l13⟩ := C38_layout file hst.length
  rw [O.header] at l0
  cases l0
  refine ⟨?_, num_unique l5 hst.fatCount, num_unique l3 hst.shift, num_unique l4 hst.miniShift, num_unique l11 hst.difatCount,
    num_unique l10 hst.difatStart, ?_, l9⟩
  · apply List.ext_getElem (by rw [l12, hst.slots])
    intro i hi hi'
    exact num_unique (l13 i _ (List.getElem?_eq_getElem hi)) (hst.difat i _ (List.getElem?_eq_getElem hi'))
  · have a1 := l1.eq_take_drop
    have a2 := hst.signature.eq_take_drop
    rw [l2] at a1
    rw [← a1]
    exact a2

/-- What the file holds when it is opened. -/
def openSnap (io : StorageIO) (P : CfbParts) : Snap :=
  { file := io.file, header := some io.header, fat := io.header.bb_blocks.take io.header.num_bat, bbat := fun x => io.bbat.data[x]?,
    mini := P.layout.big .miniFat, sbat := fun x => io.sbat.data[x]?, dirs := P.layout.big .dir, tree := fun i => io.dirtree[i]?,
    sb := some io.sb_blocks }

/-- The tables as they are in the file. -/
theorem edit_parts {file : Bytes} {P : CfbParts} {f : FileMap} (h : CfbFile file P f) (E : P.Editable file) :
    (∃ fb, (P.hd.difat.take P.hd.fatCount).length = P.hd.fatCount ∧ Content file 512 (P.hd.difat.take P.hd.fatCount) fb ∧ Words fb P.fat) ∧
    (∃ mb, Content file 512 (P.layout.big .miniFat) mb ∧ Words mb P.minifat) ∧ Content file 512 (P.layout.big .dir) P.dir ∧ P.minifat ≠ [] := by
  obtain ⟨hst, hgood, ⟨fs, fb, hfs, hfl, hfc, hfw⟩, hsz, ⟨ms, mb, hms, hmc, hmw⟩, ⟨ds, hds, hdc⟩, _⟩ := h.image
  have hss : 2 ^ P.hd.shift = 512 := by rw [E.sizes.1]
  rw [hss] at hfc hmc hdc
  have hfs : fs = P.hd.difat.take P.hd.fatCount := by
    rcases hfs with ⟨_, h1⟩ | ⟨h1, _⟩
    · exact h1
    · have := E.few.1; omega
  subst hfs
  let t : AllocTable := { blockSize := 512, data := P.fat }
  have hbig : Owned t.data P.layout.big := h.big
  have hms : ms = P.layout.big .miniFat := by
    have h1 := follow_begins hbig hsz h.miniFat
    rcases hms with hms | ⟨h2, _⟩
    · rw [follow_chain (t := t) (by show P.fat.length ≤ _; exact Nat.le_trans hsz (by decide)) hms] at h1
      exact Res.ok.inj h1
    · rw [follow_outside (t := t) h2] at h1
      exact absurd (Res.ok.inj h1).symm E.hasMiniFat
  have hds : ds = P.layout.big .dir := by
    have h1 := follow_begins hbig hsz h.directory
    rw [follow_chain (t := t) (by show P.fat.length ≤ _; exact Nat.le_trans hsz (by decide)) hds] at h1
    exact Res.ok.inj h1
  subst hms hds
  refine ⟨⟨fb, hfl, hfc, hfw⟩, ⟨mb, hmc, hmw⟩, hdc, fun hm => ?_⟩
  have := content_length hmc
  rw [hmw.1, hm] at this
  have := List.length_pos_iff.2 E.hasMiniFat
  simp at *
  omega

theorem edit_entry {file : Bytes} {P : CfbParts} {f : FileMap} {io : StorageIO} (h : CfbFile file P f) (O : Opened file P io) {i : Nat} {e' : DirEntry}
    (he' : io.dirtree[i]? = some e') : ∃ e, P.entries[i]? = some e ∧ EntryStored P.dir (128 * i) e ∧ 128 * (i + 1) ≤ P.dir.length ∧
      e'.valid = e.valid ∧ e'.dir = e.dir ∧ (e.valid = true → e' = e) := by
  have hlt := (List.getElem?_eq_some_iff.1 he').1
  have hl := O.length
  have hc := h.count
  have he := List.getElem?_eq_getElem (l := P.entries) (i := i) (by omega)
  obtain ⟨g1, g2⟩ := O.entries i e' he'
  obtain ⟨a1, a2, a3, a4, a5, a6, a7, a8⟩ := stored_same (h.entries i _ he) g1 g2 (by omega)
  refine ⟨_, he, h.entries i _ he, by omega, a1, a2, fun hv => ?_⟩
  have a8 := a8 hv
  cases e'
  generalize P.entries[i] = e at *
  cases e
  simp_all

theorem root_eq {r : DirEntry} (h2 : r.name = b!"Root Entry".map UInt8.toNat) (h3 : r.prev = 0xffffffff) (h4 : r.next = 0xffffffff) :
    rootEntry r.child r.start r.size = { r with valid := true, dir := true } := by
  cases r
  dsimp only at h2 h3 h4
  subst h2 h3 h4
  rfl

theorem edit_disk {file : Bytes} {P : CfbParts} {f : FileMap} {io : StorageIO} (h : CfbFile file P f) (E : P.Editable file) (O : Opened file P io) :
    Disk (openSnap io P) := by
  obtain ⟨⟨fb, hfl, hfc, hfw⟩, ⟨mb, hmc, hmw⟩, hdc, hne⟩ := edit_parts h E
  obtain ⟨b1, b2, b3, b4, b5, b6, b7, b8⟩ := O.fields h
  constructor
  · intro hh e
    injection e with e
    subst e
    show 512 ≤ io.file.length ∧ Header.load ((io.file.take 512).map some) = _
    rw [O.bytes]
    exact ⟨h.image.stored.length, O.header⟩
  · intro x v hv
    have hv : io.bbat.data[x]? = some v := hv
    show ∃ b, (io.header.bb_blocks.take io.header.num_bat)[x / 128]? = some b ∧ Num io.file _ 4 v
    rw [b1, b2, O.bytes]
    rw [O.big] at hv
    exact word_file hfc hfw hv
  · intro x v hv
    have hv : io.sbat.data[x]? = some v := hv
    show ∃ b, (P.layout.big .miniFat)[x / 128]? = some b ∧ Num io.file _ 4 v
    rw [O.bytes]
    rw [O.small, if_neg hne] at hv
    exact word_file hmc hmw hv
  · intro i e' hi he'
    have he' : io.dirtree[i]? = some e' := he'
    obtain ⟨e, he, hs, hlen, v1, v2, v3⟩ := edit_entry h O he'
    obtain ⟨b, hb, hk⟩ := entry_file hdc hlen
    refine ⟨b, hb, ?_⟩
    show EntryKept (io.file.map some) _ _
    rw [O.bytes]
    refine entryKept_congr ?_ hk
    cases hv : e.valid with
    | false =>
      have ht : typeOf e' = 0 := by unfold typeOf; rw [v1, hv]; rfl
      refine ⟨by rw [ht]; exact mrd_byte (E.unused i e he hv), fun hv' => ?_⟩
      rw [v1, hv] at hv'
      cases hv'
    | true =>
      have := v3 hv
      subst this
      have ht : P.dir[128 * i + 0x42]? = some (typeOf e') := by
        unfold typeOf
        rw [hv, if_pos rfl]
        cases hd : e'.dir with
        | false => exact at_byte.1 (hs.fields.isDir.1 hd)
        | true =>
          have h2 : P.dir[128 * i + 0x42]? ≠ some 2 := fun h2 => by
            rw [hs.fields.isDir.2 (at_byte.2 h2)] at hd; cases hd
          rcases (hs.fields.valid.1 hv).1 with h1 | h1 | h1
          · exact at_byte.1 h1
          · exact absurd (at_byte.1 h1) h2
          · exact absurd (at_byte.1 h1) (E.kinds i e' hi he hv)
      exact ⟨mrd_byte ht, fun _ => ⟨e'.start, e'.size, entry_stored hs hv (E.names i e' he hv) ht, fun _ => ⟨rfl, rfl⟩⟩⟩
  · intro r' sb hr hsb
    injection hsb with hsb
    have hr : io.dirtree[0]? = some r' := hr
    obtain ⟨r0, hr0, hs, hlen, v1, v2, v3⟩ := edit_entry h O hr
    obtain ⟨r1, hr1, hr1v, _⟩ := h.shape.root
    rw [hr0] at hr1
    cases hr1
    have := v3 hr1v
    subst this
    obtain ⟨r2, h1, h2, h3, h4, h5, h6⟩ := E.root
    rw [hr0] at h1
    cases h1
    obtain ⟨b, hb, hk⟩ := entry_file hdc hlen
    refine ⟨b, hb, r'.start, r'.size, by rw [← hsb, O.mini]; exact h6, ?_⟩
    show Stored (io.file.map some) _ _ _
    rw [O.bytes]
    refine stored_congr (p := 128 * 0) ?_ hk
    have hst := entry_stored (type := 5) hs hr1v (E.names 0 r' hr0 hr1v) h5
    rw [root_eq h2 h3 h4]
    exact ⟨hst.type, hst.start, hst.size, hst.prev, hst.next, hst.child, hst.len, hst.low, hst.high, hst.rest, hst.short⟩

theorem edit_ready {file : Bytes} {P : CfbParts} {f : FileMap} {io : StorageIO} (h : CfbFile file P f) (E : P.Editable file) (O : Opened file P io) :
    Ready (openSnap io P) (reopened io) P.layout.big := by
  obtain ⟨⟨fb, hfl, hfc, hfw⟩, ⟨mb, hmc, hmw⟩, hdc, hne⟩ := edit_parts h E
  obtain ⟨b1, b2, b3, b4, b5, b6, b7, b8⟩ := O.fields h
  have hst := h.image.stored
  have hsec : fatSectors (reopened io) = P.hd.difat.take P.hd.fatCount := by
    show io.header.bb_blocks.take io.header.num_bat = _
    rw [b1, b2]
  have nometa : metaMembers io = ([], []) := by
    unfold metaMembers
    rw [if_neg (fun hm => by have := E.few.1; rw [b2] at hm; omega)]
  have hfcl := content_length hfc
  have hmcl := content_length hmc
  have hdcl := content_length hdc
  have hfwl := hfw.1
  have hmwl := hmw.1
  have sbat : io.sbat.data = P.minifat := by rw [O.small, if_neg hne]
  have ns : io.header.num_sbat = (P.layout.big .miniFat).length := num_unique b8 E.miniFatCount
  have words : ∀ {bs : Bytes} {ws : List Nat}, Words bs ws → ∀ v ∈ ws, v < 2 ^ 32 := fun hw v hv => by
    obtain ⟨i, hi⟩ := List.mem_iff_getElem?.1 hv
    exact (hw.2 i v hi).lt
  refine ⟨⟨?_, ?_, ?_, Or.inr rfl, ?_, ?_, ?_, fun x hx => (by cases hx), ?_, fun x _ => Or.inr (Or.inl (Or.inr rfl)), ?_, ?_, ?_, ?_, ?_⟩, ?_, ?_, ?_⟩
  · show io.header.bb_blocks.length = _
    rw [b1]; exact hst.slots
  · show io.header.num_bat ≤ _
    rw [b2]; exact E.few.1
  · show 0 < io.header.num_bat
    rw [b2]; exact h.image.good.fatCount
  · rw [hsec]; exact E.fatNodup
  · rw [hsec]
    show ∀ b ∈ _, Used io.bbat.data b
    rw [O.big]
    exact fun b hb => (E.fatUsed b hb).1
  · rw [hsec]
    exact fun b hb => (E.fatUsed b hb).2
  · show io.bbat.data.length ≤ 128 * io.header.num_bat + 0
    rw [O.big, b2]
    omega
  · show ∀ v ∈ io.bbat.data, _
    rw [O.big]; exact words hfw
  · show io.bbat.blockSize = 512
    rw [O.bigSize, E.sizes.1]
  · exact ⟨by show io.header.b_shift = 9; rw [b3]; exact E.sizes.1, by show io.header.s_shift = 6; rw [b4]; exact E.sizes.2, O.threshold,
      by show io.header.num_mbat = 0; rw [b5]; exact E.few.2, by show io.header.mbat_start = _; rw [b6]; exact E.noDifat, b7, by show (metaMembers io).1 = []; rw [nometa], by show (metaMembers io).2 = []; rw [nometa]⟩
  · show ∀ b ∈ io.header.bb_blocks, _
    rw [b1]
    intro b hb
    obtain ⟨i, hi⟩ := List.mem_iff_getElem?.1 hb
    exact (hst.difat i b hi).lt
  · exact List.prefix_refl _
  · refine ⟨ns, E.hasMiniFat, ?_, fun x _ => Or.inr rfl, ?_, ?_, List.prefix_refl _⟩
    · show io.sbat.data.length ≤ 128 * io.header.num_sbat
      rw [sbat, ns]
      omega
    · show ∀ v ∈ io.sbat.data, _
      rw [sbat]; exact words hmw
    · show io.sbat.blockSize = 64
      rw [O.smallSize, E.sizes.2]
  · refine ⟨?_, ?_, fun i _ => Or.inr rfl, Or.inr rfl, fun d hd => (by cases hd), ?_, List.prefix_refl _⟩
    · show io.dirtree.length ≤ _
      rw [O.length, h.count]
      omega
    · show 0 < io.dirtree.length
      rw [O.length]
      obtain ⟨r, hr, _⟩ := h.shape.root
      exact Nat.lt_of_le_of_lt (Nat.zero_le _) (List.getElem?_eq_some_iff.1 hr).1
    · intro e he
      obtain ⟨i, hi⟩ := List.mem_iff_getElem?.1 he
      have := (O.entries i e hi).2
      exact ⟨this.start.lt, this.prev.lt, this.next.lt, this.child.lt⟩
  · intro a v _ hv
    exact hv

theorem edit_saveable {file : Bytes} {P : CfbParts} {f : FileMap} {io : StorageIO} (h : CfbFile file P f) (E : P.Editable file) (O : Opened file P io) :
    Saveable (reopened io) := by
  refine ⟨openSnap io P, edit_disk h E O, prepared_of (cfb_holds h O) ⟨?_, ?_⟩ (edit_ready h E O)⟩
  · show io.bbat.data.length ≤ _
    rw [O.big]; exact h.image.hfatSize
  · show io.sbat.data.length ≤ _
    rw [O.small, if_neg (edit_parts h E).2.2.2]; exact h.minifatSize

theorem edit_storable {file : Bytes} {P : CfbParts} {f : FileMap} {io : StorageIO} (h : CfbFile file P f) (E : P.Editable file) (O : Opened file P io) :
    Storable io.dirtree := by
  intro e' he'
  obtain ⟨i, hi⟩ := List.mem_iff_getElem?.1 he'
  obtain ⟨e, he, hs, _, v1, v2, v3⟩ := edit_entry h O hi
  obtain ⟨g1, g2⟩ := O.entries i e' hi
  cases hv : e.valid with
  | false =>
    exact ⟨loadEntry_length g1, fun h' => (by rw [v1, hv] at h'; cases h'), g2.size.lt⟩
  | true =>
    have := v3 hv
    subst this
    obtain ⟨n1, n2, n3, n4, n5⟩ := hs.name hv
    refine ⟨by omega, fun _ x hx => ⟨?_, (E.names i e' he hv).1 x hx⟩, g2.size.lt⟩
    have := n2 x hx
    omega

end Fileid.Pole
