import Verif.Lemmas.Oless

/-!
# Lemmas about the streams of a compound file
-/

namespace Fileid.Oless

open Spec Spec.Ole Pole Props Vba

/-- What opening a file gives (the conclusion of `C68_open`). -/
structure Opened (file : Bytes) (hd : CfbHeader) (fat minifat mini : List Nat) (io : StorageIO) : Prop where
  isFile : io.file = file
  threshold : io.header.threshold = 4096
  big : io.bbat.blockSize = 2 ^ hd.shift
  bigData : io.bbat.data = fat
  small : io.sbat.blockSize = 2 ^ hd.miniShift
  smallData : io.sbat.data = (if minifat = [] then List.replicate 128 0xffffffff else minifat)
  mini : io.sb_blocks = mini

/-- The stream has the content: whatever is read from it is a piece of the content. -/
def Reads (io : StorageIO) (s : StreamIO) (content : Bytes) : Prop :=
  s.entry.size = content.length ∧ content.length < 2 ^ 32 ∧
  ∀ pos maxlen (data : Mem), pos ≤ content.length → maxlen < 2 ^ 32 → maxlen ≤ data.length →
    s.readAt io pos data maxlen = .ok (min maxlen (content.length - pos),
      ((content.drop pos).take (min maxlen (content.length - pos))).map some ++
        data.drop (min maxlen (content.length - pos)))

theorem readLoop_zero (load : Nat → Mem → Res Mem) (bs : Nat) (l : List Nat) (o : Nat) (buf data : Mem) :
    readLoop load bs 0 l o 0 buf data = .ok (0, data) := by
  cases l with
  | nil => rfl
  | cons => rw [readLoop, if_neg (by omega)]

theorem readAt_empty (io : StorageIO) (s : StreamIO) (h : s.entry.size = 0) (maxlen : Nat) (hm : maxlen < 2 ^ 64)
    (data : Mem) : s.readAt io 0 data maxlen = .ok (0, data) := by
  unfold StreamIO.readAt
  by_cases h0 : maxlen = 0
  · rw [if_pos h0]
  · rw [if_neg h0]
    dsimp only
    have e : u64 (0 + maxlen) = maxlen := by unfold u64; omega
    have e2 : sub64 0 0 = 0 := by decide
    rw [e, if_pos (c := maxlen > s.entry.size) (by omega), h, e2, readLoop_zero]
    simp

theorem default_chain (s : Nat) : ∃ l, ChainOrNone (List.replicate 128 0xffffffff) s l := by
  by_cases h : s < 128
  · exact ⟨[s], Or.inl (.last (e := 0xffffffff) (by rw [List.getElem?_replicate, if_pos h]) (by simp))⟩
  · exact ⟨[], Or.inr ⟨by simp; omega, rfl⟩⟩

theorem stream_spec {file : Bytes} {hd : CfbHeader} {fat minifat mini : List Nat} {io : StorageIO}
    (ho : Opened file hd fat minifat mini io) (hg : hd.Good) (hfat : fat.length ≤ 0xfffffffc)
    (hmini : minifat.length ≤ 0xfffffffc) {e : DirEntry} (hdir : e.dir = false) {content : Bytes}
    (h32 : e.size < 2 ^ 32)
    (hc : StreamContent file hd fat minifat mini e.start e.size content) :
    ∃ s, streamOf io (some e) = .ok (some s) ∧ s.entry = e ∧ Reads io s content := by
  obtain ⟨hl, hc⟩ := hc
  have hpow : (2 : Nat) ^ hd.shift < 2 ^ 64 := Nat.pow_lt_pow_right (by decide) (by have := hg.shift; omega)
  unfold streamOf StreamIO.new
  dsimp only
  rw [if_neg (by simp [hdir]), ho.threshold]
  by_cases hbig : 4096 ≤ e.size
  · rw [if_pos hbig] at hc
    obtain ⟨sectors, bytes, h1, h2, h3⟩ := hc
    have hb : content = bytes.take content.length := by simpa using h3.eq_take_drop.symm
    have hbl := h3.length_le
    rw [if_pos hbig, follow_chain (by rw [ho.bigData]; exact hfat) (by rw [ho.bigData]; exact h1)]
    refine ⟨⟨e, sectors⟩, rfl, rfl, hl.symm, by omega, fun pos maxlen data hpos hmax hdata => ?_⟩
    obtain ⟨n, hn, hr⟩ := C44_read_large_partial io ⟨e, sectors⟩ bytes (by rw [ho.threshold]; exact hbig)
      (by rw [ho.big]; exact Nat.two_pow_pos _) (by rw [ho.big]; exact hpow) (by rw [ho.big, ho.isFile]; exact h2)
      (by dsimp only; omega) pos maxlen data (by dsimp only; omega) (by omega) (by dsimp only; omega) hdata
    rw [hr, hn]
    dsimp only
    rw [← hl]
    have : ((bytes.drop pos).take (min maxlen (content.length - pos))) =
        ((content.drop pos).take (min maxlen (content.length - pos))) := by
      rw [hb, List.drop_take, List.take_take, List.length_take]
      congr 1
      omega
    rw [this]
  · rw [if_neg hbig] at hc
    obtain ⟨sectors, ms, bytes, h1, h2, h3, h4⟩ := hc
    rw [if_neg hbig]
    by_cases h0 : e.size = 0
    · have hcn : content = [] := List.length_eq_zero_iff.1 (by omega)
      have hf : ∃ l, io.sbat.follow e.start = .ok l := by
        by_cases hm : minifat = []
        · obtain ⟨l, hl⟩ := default_chain e.start
          rw [← show io.sbat.data = List.replicate 128 0xffffffff by rw [ho.smallData, if_pos hm]] at hl
          exact ⟨l, follow_chainOrNone (by rw [ho.smallData, if_pos hm]; simp) hl⟩
        · have hdata : io.sbat.data = minifat := by rw [ho.smallData, if_neg hm]
          exact ⟨sectors, follow_chainOrNone (by rw [hdata]; exact hmini) (by rw [hdata]; exact h1)⟩
      obtain ⟨l, hf⟩ := hf
      rw [hf]
      refine ⟨⟨e, l⟩, rfl, rfl, hl.symm, by omega, fun pos maxlen data hpos hmax hdata => ?_⟩
      subst hcn
      have : pos = 0 := by simpa using hpos
      subst this
      rw [readAt_empty io ⟨e, l⟩ h0 maxlen (by omega)]
      simp
    · have hb : content = bytes.take content.length := by simpa using h4.eq_take_drop.symm
      have hbl := h4.length_le
      have hm : minifat ≠ [] := by
        rintro rfl
        rcases h1 with h1 | ⟨_, rfl⟩
        · cases h1 with
          | last h => simp at h
          | next h => simp at h
        · cases h3
          simp at hbl
          subst hbl
          simp at hl
          omega
      have hdata : io.sbat.data = minifat := by rw [ho.smallData, if_neg hm]
      rw [follow_chainOrNone (by rw [hdata]; exact hmini) (by rw [hdata]; exact h1)]
      refine ⟨⟨e, sectors⟩, rfl, rfl, hl.symm, by omega, fun pos maxlen data hpos hmax hdata' => ?_⟩
      obtain ⟨n, hn, hr⟩ := C67_read_small_partial io ⟨e, sectors⟩ ms bytes
        (by rw [ho.threshold]; dsimp only; omega) (by rw [ho.small]; exact Nat.two_pow_pos _)
        (by rw [ho.big]; exact Nat.two_pow_pos _)
        (by rw [ho.big]; exact hpow) (by rw [ho.big, ho.small]; exact Nat.pow_dvd_pow 2 hg.miniShift)
        (by rw [ho.big, ho.isFile, ho.mini]; exact h2) (by rw [ho.small]; exact h3)
        (by dsimp only; omega) pos maxlen data (by dsimp only; omega) (by omega) (by dsimp only; omega) hdata'
      rw [hr, hn]
      dsimp only
      rw [← hl]
      have : ((bytes.drop pos).take (min maxlen (content.length - pos))) =
          ((content.drop pos).take (min maxlen (content.length - pos))) := by
        rw [hb, List.drop_take, List.take_take, List.length_take]
        congr 1
        omega
      rw [this]

theorem memBytes_some (bs : Bytes) : memBytes (bs.map some) = .ok bs := by
  induction bs with
  | nil => rfl
  | cons b bs ih => rw [List.map_cons, memBytes, ih]; rfl

/-- Reading a whole stream. -/
theorem readAll {io : StorageIO} {s : StreamIO} {content : Bytes} (h : Reads io s content) :
    s.readAt io 0 (newMem content.length) content.length = .ok (content.length, content.map some) := by
  rw [h.2.2 0 content.length (newMem content.length) (by omega) h.2.1 (by simp [newMem])]
  simp [newMem]

theorem readStream_spec {abi : Abi} {io : StorageIO} {s : StreamIO} {content : Bytes} {name : WStr}
    (hs : io.streamIO abi name = .ok (some s)) (h : Reads io s content) : ReadStream abi io name = .ok content := by
  unfold ReadStream
  rw [hs, Res.bind_ok]
  dsimp only [streamSize, streamRead]
  rw [h.1, readAll h, Res.bind_ok]
  dsimp only
  rw [if_pos rfl, memBytes_some]

/-- The loop that writes a stream to a file. -/
theorem dumpLoop_spec {io : StorageIO} {s : StreamIO} {content : Bytes} (h : Reads io s content) :
    ∀ fuel pos out, pos ≤ content.length → content.length - pos < 16 * fuel →
      dumpLoop io s fuel pos out = .ok (out ++ content.drop pos) := by
  intro fuel
  induction fuel with
  | zero => intro pos out _ hf; omega
  | succ f ih =>
    intro pos out hpos hf
    rw [dumpLoop, h.2.2 pos 16 (newMem 16) hpos (by decide) (by simp [newMem]), Res.bind_ok]
    dsimp only
    have e : ((((content.drop pos).take (min 16 (content.length - pos))).map some ++
        (newMem 16).drop (min 16 (content.length - pos))).take (min 16 (content.length - pos))) =
        ((content.drop pos).take (min 16 (content.length - pos))).map some := by
      rw [List.take_append_of_le_length (by simp), List.take_of_length_le (by simp)]
    rw [e, memBytes_some, Res.bind_ok]
    by_cases hlt : min 16 (content.length - pos) < 16
    · rw [if_pos hlt, List.take_of_length_le (by simp; omega)]
    · rw [if_neg hlt, show min 16 (content.length - pos) = 16 by omega, ih (pos + 16) _ (by omega) (by omega),
        List.append_assoc, ← List.drop_drop, List.take_append_drop]

end Fileid.Oless
