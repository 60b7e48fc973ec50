import Verif.Props.PoleCut

/-!
# Streams of compound files that were cut off: C44
-/

namespace Fileid.Props

open Spec Pole

/-- The blocks are loaded one after the other into a buffer that keeps what it held before: what the buffer holds
after each of them. -/
inductive Loads (load : Nat → Mem → Res Mem) (bs : Nat) : Mem → List Nat → List Mem → Prop
  | nil {m : Mem} : Loads load bs m [] []
  | cons {m c : Mem} {b : Nat} {rest : List Nat} {cs : List Mem} : load b m = .ok c → c.length = bs →
      Loads load bs c rest cs → Loads load bs m (b :: rest) (c :: cs)

theorem readLoop_loads {load : Nat → Mem → Res Mem} {bs : Nat} (maxlen : Nat) {blocks : List Nat} :
    ∀ {buf : Mem} {chunks : List Mem} (_ : Loads load bs buf blocks chunks) (offset total : Nat) (data : Mem),
      offset ≤ bs → total ≤ maxlen → maxlen ≤ data.length → maxlen - total + offset ≤ chunks.flatten.length →
      readLoop load bs maxlen blocks offset total buf data =
        .ok (maxlen, data.take total ++ (chunks.flatten.drop offset).take (maxlen - total) ++ data.drop maxlen) := by
  induction blocks with
  | nil =>
    intro buf chunks h offset total data _ ht hd hc
    cases h
    simp at hc
    have : total = maxlen := by omega
    subst this
    rw [readLoop]
    simp
  | cons b rest ih =>
    intro buf chunks h offset total data hoff ht hd hc
    cases h with
    | @cons _ c _ _ cs hl hcl hr =>
      rw [readLoop]
      by_cases hlt : total < maxlen
      · rw [if_pos hlt, hl, Res.bind_ok]
        dsimp only
        have hcs : (c :: cs).flatten = c ++ cs.flatten := by simp
        rw [hcs] at hc ⊢
        rw [List.length_append, hcl] at hc
        generalize hcount : (if bs - offset > maxlen - total then maxlen - total else bs - offset) = count
        have hle1 : count ≤ bs - offset := by split at hcount <;> omega
        have hle2 : count ≤ maxlen - total := by split at hcount <;> omega
        have hor : count = maxlen - total ∨ count = bs - offset := by split at hcount <;> omega
        have hcl' : ((c.drop offset).take count).length = count := by
          rw [List.length_take, List.length_drop, hcl]; omega
        rw [mslice_ok (by rw [hcl]; omega), Res.bind_ok, mwr_ok (by rw [hcl']; omega), Res.bind_ok, hcl',
          ih hr 0 (total + count) _ (by omega) (by omega)
            (by simp only [List.length_append, List.length_take, List.length_drop, hcl]; omega) (by omega)]
        congr 2
        have t1 : (data.take total).length = total := by rw [List.length_take]; omega
        have e1 : (data.take total ++ (c.drop offset).take count ++ data.drop (total + count)).take (total + count) =
            data.take total ++ (c.drop offset).take count := by
          rw [List.take_append_of_le_length (by rw [List.length_append, t1, hcl']; omega), List.take_of_length_le
            (by rw [List.length_append, t1, hcl']; omega)]
        have e2 : (data.take total ++ (c.drop offset).take count ++ data.drop (total + count)).drop maxlen =
            data.drop maxlen := by
          rw [List.drop_append, List.drop_eq_nil_of_le (by rw [List.length_append, t1, hcl']; omega), List.nil_append,
            List.length_append, t1, hcl', List.drop_drop]
          congr 1
          omega
        rw [e1, e2, List.drop_zero, List.drop_append_of_le_length (by omega), List.take_append,
          List.length_drop, hcl, List.append_assoc, List.append_assoc, List.append_assoc, List.append_assoc]
        congr 1
        rcases hor with h | h
        · rw [← h, show count - (bs - offset) = 0 by omega, show maxlen - (total + count) = 0 by omega]
        · rw [← h, List.take_of_length_le (l := c.drop offset) (i := count) (by rw [List.length_drop, hcl]; omega),
            List.take_of_length_le (l := c.drop offset) (by rw [List.length_drop, hcl]; omega),
            show maxlen - (total + count) = maxlen - total - count by omega]
      · rw [if_neg hlt]
        have : total = maxlen := by omega
        subst this
        simp

/-- A block behind the end of the file leaves the buffer alone. -/
theorem loadBigBlock_behind {file : Bytes} {bs b : Nat} {m : Mem} (h : file.length ≤ bs * (b + 1)) :
    loadBigBlock file bs b m bs = .ok m := by
  unfold loadBigBlock loadBigBlocks
  rw [loadLoop]
  split
  · dsimp only
    have : (if bs * (b + 1) ≤ file.length then
        ((file.drop (bs * (b + 1))).take (if bs * (b + 1) + (if bs < bs - 0 then bs else bs - 0) > file.length then
          sub64 file.length (bs * (b + 1)) else (if bs < bs - 0 then bs else bs - 0))).map some else []) =
        ([] : Mem) := by
      split
      · rw [List.drop_eq_nil_of_le h]
        simp
      · rfl
    rw [this, mwr_ok (by simp), Res.bind_ok]
    simp [loadLoop]
  · rfl

theorem loads_behind {file : Bytes} {bs : Nat} {m : Mem} (hm : m.length = bs) : ∀ (missing : List Nat),
    (∀ b ∈ missing, file.length ≤ bs * (b + 1)) →
    Loads (fun b buf => loadBigBlock file bs b buf bs) bs m missing (List.replicate missing.length m) := by
  intro missing
  induction missing with
  | nil => intro _; exact .nil
  | cons b rest ih =>
    intro h
    exact .cons (loadBigBlock_behind (h b (by simp))) hm (ih fun x hx => h x (by simp [hx]))

theorem loads_present {file : Bytes} {bs : Nat} (h64 : bs < 2 ^ 64) {missing : List Nat} {tail : List Mem} {last : Bytes}
    {a : Nat} (ha : Sector file bs a last)
    (hm : Loads (fun b buf => loadBigBlock file bs b buf bs) bs (last.map some) missing tail) :
    ∀ {present : List Nat} {content : Bytes} (_ : Content file bs present content) (m : Mem), m.length = bs →
      ∃ chunks, Loads (fun b buf => loadBigBlock file bs b buf bs) bs m (present ++ a :: missing) (chunks ++ tail) ∧
        chunks.flatten = (content ++ last).map some := by
  intro present
  induction present with
  | nil =>
    intro content hc m hl
    cases hc
    exact ⟨[last.map some], .cons (loadBigBlock_sector ha hl h64) (by simp [ha.2]) hm, by simp⟩
  | cons b rest ih =>
    intro content hc m hl
    cases hc with
    | @cons _ _ s c' hs hr =>
      obtain ⟨chunks, h1, h2⟩ := ih hr (s.map some) (by simp [hs.2])
      exact ⟨s.map some :: chunks, .cons (loadBigBlock_sector hs hl h64) (by simp [hs.2]) h1, by simp [h2]⟩

/-- C44 is false of a file that was cut off: of a large stream whose last sectors are behind the end of the file all
bytes are reported as read; where the missing sectors should be, the last sector that is there is repeated. -/
theorem C44_cut_repeats_wrong (io : StorageIO) (s : StreamIO) (present missing : List Nat) (a : Nat)
    (content last : Bytes) (hbig : io.header.threshold ≤ s.entry.size) (hbs : 0 < io.bbat.blockSize)
    (hbs64 : io.bbat.blockSize < 2 ^ 64) (hblocks : s.blocks = present ++ a :: missing)
    (hc : Content io.file io.bbat.blockSize present content) (ha : Sector io.file io.bbat.blockSize a last)
    (hmiss : ∀ b ∈ missing, io.file.length ≤ io.bbat.blockSize * (b + 1))
    (hsize : s.entry.size ≤ io.bbat.blockSize * s.blocks.length) (hs0 : 0 < s.entry.size)
    (hs64 : s.entry.size < 2 ^ 64) (data : Mem) (hd : s.entry.size ≤ data.length) :
    s.readAt io 0 data s.entry.size = .ok (s.entry.size,
      ((content ++ last ++ (List.replicate missing.length last).flatten).take s.entry.size).map some ++
        data.drop s.entry.size) := by
  obtain ⟨chunks, h1, h2⟩ := loads_present hbs64 ha
    (loads_behind (m := last.map some) (by simp [ha.2]) missing hmiss) hc (newMem io.bbat.blockSize) (by simp [newMem])
  have hlen := content_length hc
  have hflat : (chunks ++ List.replicate missing.length (last.map some)).flatten =
      (content ++ last ++ (List.replicate missing.length last).flatten).map some := by
    rw [List.flatten_append, h2]
    simp [List.map_flatten, List.map_replicate]
  have hrep : (List.replicate missing.length last).flatten.length = missing.length * io.bbat.blockSize := by
    rw [flatten_length_const (bs := io.bbat.blockSize), List.length_replicate]
    intro c hc
    rw [List.eq_of_mem_replicate hc, ha.2]
  have htot : (content ++ last ++ (List.replicate missing.length last).flatten).length =
      io.bbat.blockSize * s.blocks.length := by
    rw [List.length_append, List.length_append, hlen, ha.2, hrep, hblocks, List.length_append, List.length_cons,
      Nat.mul_comm io.bbat.blockSize, Nat.add_mul, Nat.add_mul]
    omega
  unfold StreamIO.readAt
  have hm : (if u64 (0 + s.entry.size) > s.entry.size then sub64 s.entry.size 0 else s.entry.size) = s.entry.size := by
    rw [if_neg]
    unfold u64
    omega
  have hsm : decide (s.entry.size < io.header.threshold) = false := by simp; omega
  rw [if_neg (by omega)]
  simp only [hm, hsm, Bool.false_eq_true, ↓reduceIte]
  rw [Nat.zero_div, Nat.zero_mod, if_neg (by rw [hblocks]; simp), List.drop_zero, hblocks,
    readLoop_loads _ h1 0 0 data (by omega) (by omega) hd (by rw [hflat, List.length_map, htot]; omega), hflat]
  simp [List.map_take]

/-- C44 is false of a file that was cut off: what is read from a missing sector on alone are bytes that nobody wrote,
and they are reported as read. -/
theorem C44_cut_unwritten_wrong (io : StorageIO) (s : StreamIO) (pos maxlen : Nat)
    (hbig : io.header.threshold ≤ s.entry.size) (hbs : 0 < io.bbat.blockSize)
    (hsize : s.entry.size ≤ io.bbat.blockSize * s.blocks.length)
    (hpos : pos + maxlen ≤ s.entry.size) (hm0 : 0 < maxlen) (hs64 : s.entry.size < 2 ^ 64)
    (hmiss : ∀ b ∈ s.blocks.drop (pos / io.bbat.blockSize), io.file.length ≤ io.bbat.blockSize * (b + 1))
    (data : Mem) (hd : maxlen ≤ data.length) :
    s.readAt io pos data maxlen = .ok (maxlen, List.replicate maxlen none ++ data.drop maxlen) := by
  have h1 := loads_behind (m := newMem io.bbat.blockSize) (by simp [newMem]) _ hmiss
  have hflat : ∀ n, (List.replicate n (newMem io.bbat.blockSize)).flatten =
      List.replicate (n * io.bbat.blockSize) (none : Option UInt8) := by
    intro n
    unfold newMem
    rw [List.flatten_replicate_replicate]
  have hdm := Nat.div_add_mod pos io.bbat.blockSize
  have hidx : pos / io.bbat.blockSize < s.blocks.length := by
    apply Nat.div_lt_of_lt_mul
    omega
  unfold StreamIO.readAt
  have hm : (if u64 (pos + maxlen) > s.entry.size then sub64 s.entry.size pos else maxlen) = maxlen := by
    rw [if_neg]
    unfold u64
    omega
  have hsm : decide (s.entry.size < io.header.threshold) = false := by simp; omega
  have hroom : maxlen + pos % io.bbat.blockSize ≤
      (s.blocks.length - pos / io.bbat.blockSize) * io.bbat.blockSize := by
    rw [Nat.sub_mul, Nat.mul_comm s.blocks.length, Nat.mul_comm (pos / _)]
    omega
  rw [if_neg (by omega)]
  simp only [hm, hsm, Bool.false_eq_true, ↓reduceIte]
  rw [if_neg (by omega), readLoop_loads _ h1 (pos % io.bbat.blockSize) 0 data
    (Nat.le_of_lt (Nat.mod_lt _ hbs)) (by omega) hd
    (by rw [hflat, List.length_replicate, List.length_drop]; omega), hflat]
  simp only [List.take_zero, List.nil_append, Nat.sub_zero, List.drop_replicate, List.take_replicate,
    List.length_drop]
  rw [show min maxlen ((s.blocks.length - pos / io.bbat.blockSize) * io.bbat.blockSize - pos % io.bbat.blockSize) =
    maxlen by omega]

/-- A storage with sectors of 4096 bytes whose file ends behind the first sector. -/
def cutIo : StorageIO :=
  { Sample.io with file := List.replicate 4096 0 ++ List.replicate 4096 65, bbat := { blockSize := 4096, data := fatCut } }
where fatCut : List Nat := 1 :: 0xfffffffe :: List.replicate 1022 0xffffffff

/-- A stream of two sectors in it. -/
def cutStream : StreamIO := ⟨{ valid := true, name := [97], size := 8000 }, [0, 1]⟩

theorem cutIo_length : cutIo.file.length = 8192 := by
  show (List.replicate 4096 (0 : UInt8) ++ List.replicate 4096 65).length = 8192
  rw [List.length_append, List.length_replicate, List.length_replicate]

example (data : Mem) (hd : 8000 ≤ data.length) : cutStream.readAt cutIo 0 data 8000 =
    .ok (8000, List.replicate 8000 (some 65) ++ data.drop 8000) := by
  have := C44_cut_repeats_wrong cutIo cutStream [] [1] 0 [] (List.replicate 4096 65) (by decide) (by decide)
    (by decide) rfl .nil ⟨⟨List.replicate 4096 0, [], (List.append_nil _).symm, List.length_replicate⟩, List.length_replicate⟩
    (fun b hb => by rw [List.mem_singleton.mp hb, cutIo_length]; decide) (by decide) (by decide) (by decide) data hd
  rw [show cutStream.entry.size = 8000 from rfl] at this
  rw [this]
  simp only [List.length_singleton, List.replicate_one, List.flatten_singleton, List.nil_append,
    List.replicate_append_replicate, List.take_replicate, List.map_replicate]
  rfl

example : cutStream.readAt cutIo 4096 (newMem 2) 2 = .ok (2, [none, none]) := by
  rw [C44_cut_unwritten_wrong cutIo cutStream 4096 2 (by decide) (by decide) (by decide) (by decide) (by decide)
    (by decide) (fun b hb => by
      rw [List.mem_singleton.mp (hb : b ∈ [1]), cutIo_length]; decide) (newMem 2) (by decide)]
  rfl

end Fileid.Props
