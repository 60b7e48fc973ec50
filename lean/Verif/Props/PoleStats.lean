import Verif.Model.PoleStats
import Verif.Spec.Stats
import Verif.Props.PoleOpen
import Verif.Props.PoleBare
import Verif.Props.PoleShort
import Verif.Lemmas.PoleServe
import Verif.Lemmas.PoleGood

/-!
# Statistics about a storage: C118
-/

namespace Fileid.Props

open Spec Pole

theorem countP_range {α : Type} (p : α → Bool) (q : Nat → Bool) (l : List α) (n : Nat) (hn : l.length = n)
    (h : ∀ i e, l[i]? = some e → p e = q i) : l.countP p = (List.range n).countP q := by
  have e : l.map p = (List.range n).map q := by
    apply List.ext_getElem?
    intro i
    rw [List.getElem?_map, List.getElem?_map]
    by_cases hi : i < n
    · rw [List.getElem?_range hi, List.getElem?_eq_getElem (by omega)]
      simp [h i _ (List.getElem?_eq_getElem (by omega))]
    · rw [List.getElem?_eq_none (by omega), List.getElem?_eq_none (by simp; omega)]
      rfl
  have h1 : ∀ {β : Type} (r : β → Bool) (m : List β), m.countP r = (m.map r).countP id := fun r m => by
    rw [List.countP_map]; rfl
  rw [h1 p, h1 q, e]

theorem slot_valid {abi : Abi} {dir : Bytes} {i : Nat} {e : DirEntry} (hi : i < dir.length / 128) (hp : ProperSlots dir)
    (h : loadEntry abi (dir.map some) (128 * i) = .ok e) : (!e.valid) = (dir[128 * i + 0x42]? == some 0) := by
  unfold loadEntry at h
  obtain ⟨nl, h1, h⟩ := bind_inv h
  obtain ⟨actual, _, h⟩ := bind_inv h
  obtain ⟨name, _, h⟩ := bind_inv h
  obtain ⟨type, h2, h⟩ := bind_inv h
  obtain ⟨_, _, h⟩ := bind_inv h
  obtain ⟨_, _, h⟩ := bind_inv h
  obtain ⟨_, _, h⟩ := bind_inv h
  obtain ⟨_, _, h⟩ := bind_inv h
  obtain ⟨_, _, h⟩ := bind_inv h
  injection h with h
  subst h
  have ht : dir[128 * i + 0x42]? = some type := by
    unfold mrd at h2
    rw [List.getElem?_map, show 0x42 + 128 * i = 128 * i + 0x42 by omega] at h2
    cases hd : dir[128 * i + 0x42]? with
    | none => rw [hd] at h2; cases h2
    | some t => rw [hd] at h2; injection h2 with h2; rw [h2]
  rw [ht]
  rcases hp i hi with h0 | ⟨⟨t, htm, h0⟩, n, hn, hnum⟩
  · rw [ht] at h0
    injection h0 with h0
    subst h0
    simp
  · rw [ht] at h0
    injection h0 with h0
    subst h0
    rw [show 0x40 + 128 * i = 128 * i + 0x40 by omega, readU16_num hnum] at h1
    injection h1 with h1
    subst h1
    have hl : ¬ (if n > 64 then 64 else n) < 1 := by split <;> omega
    simp only [List.mem_cons, List.not_mem_nil, or_false] at htm
    rcases htm with rfl | rfl | rfl <;> simp [hl]

theorem unused_free (t : AllocTable) : t.unusedCount = freeSectors t.data := by
  unfold AllocTable.unusedCount freeSectors
  rw [List.countP_eq_length_filter]
  rfl

/-- C118: the statistics of a compound file with a mini FAT: the slots of its directory and those of them without an entry, the sectors
its FAT has room for and those it marks as free, and the same of the mini FAT. Missing: files without a mini FAT, see below. -/
theorem C118_stats_partial (abi : Abi) (habi : abi.wcharBytes ≤ 4) (file : Bytes) (hd : CfbHeader) (fat minifat : List Nat) (dir : Bytes)
    (mini : List Nat) (h : CfbImage file hd fat minifat dir mini) (hslots : ProperSlots dir) (hmini : minifat ≠ []) :
    ∃ io, openStorage abi (some file) = .ok (.opened io) ∧
      io.getStats = ⟨dir.length / 128, freeSlots dir, fat.length, freeSectors fat, minifat.length, freeSectors minifat⟩ := by
  obtain ⟨io, h1, _, _, _, h2, _, h3, _, h4, _, h5⟩ := C68_open abi habi file hd fat minifat dir mini h
  rw [if_neg hmini] at h3
  refine ⟨io, h1, ?_⟩
  have hu : unusedEntryCount io.dirtree = freeSlots dir := by
    unfold unusedEntryCount freeSlots
    rw [← List.countP_eq_length_filter]
    refine countP_range _ _ _ _ h4 fun i e he => slot_valid ?_ hslots (h5 i e he).1
    have := (List.getElem?_eq_some_iff.1 he).1
    omega
  unfold StorageIO.getStats AllocTable.count
  rw [unused_free, unused_free, h2, h3, h4, hu]

/-- C118 is false of every compound file without a mini FAT: 128 small blocks are reported, all of them free, and there are none. -/
theorem C118_no_minifat_false (abi : Abi) (habi : abi.wcharBytes ≤ 4) (file : Bytes) (hd : CfbHeader) (fat : List Nat) (dir : Bytes)
    (mini : List Nat) (h : CfbImage file hd fat [] dir mini) :
    ∃ io, openStorage abi (some file) = .ok (.opened io) ∧ io.getStats.smallBlocks = 128 ∧ io.getStats.unusedSmallBlocks = 128 := by
  obtain ⟨io, h1, _, _, _, h2, _, h3, _, h4, _, h5⟩ := C68_open abi habi file hd fat [] dir mini h
  rw [if_pos rfl] at h3
  refine ⟨io, h1, ?_, ?_⟩
  · unfold StorageIO.getStats AllocTable.count; rw [h3]; exact List.length_replicate
  · show io.sbat.unusedCount = 128
    rw [unused_free, h3]
    decide +kernel

/-- C118: the numbers are consistent, whatever was done with the storage: no more is free than there is. -/
theorem C118_consistent (io : StorageIO) : io.getStats.unusedEntries ≤ io.getStats.entries ∧
    io.getStats.unusedBigBlocks ≤ io.getStats.bigBlocks ∧ io.getStats.unusedSmallBlocks ≤ io.getStats.smallBlocks :=
  ⟨List.length_filter_le _ _, List.length_filter_le _ _, List.length_filter_le _ _⟩

/-! ## What was written takes room -/

theorem used_free {fat l : List Nat} (hl : l.Nodup) (h : ∀ x ∈ l, Used fat x) : l.length + freeSectors fat ≤ fat.length := by
  have hf : freeSectors fat = ((List.range fat.length).filter fun i => fat[i]? == some 0xffffffff).length := by
    rw [← List.countP_eq_length_filter]
    exact countP_range _ _ _ _ rfl fun i e he => by rw [he]; simp
  rw [hf, ← List.length_append]
  refine nodup_length_le _ _ (List.nodup_append.2 ⟨hl, List.Pairwise.filter _ List.nodup_range, fun a ha b hb hab => ?_⟩) fun x hx => ?_
  · subst hab
    obtain ⟨v, hv, hne⟩ := h a ha
    rw [List.mem_filter] at hb
    have h2 := hb.2
    rw [hv] at h2
    exact hne (by show v = 0xffffffff; simpa using h2)
  · rw [List.mem_append] at hx
    rcases hx with hx | hx
    · obtain ⟨v, hv, _⟩ := h x hx
      exact (List.getElem?_eq_some_iff.1 hv).1
    · simpa using (List.mem_filter.1 hx).1

theorem owned_free {ω : Type} {fat : List Nat} {own : ω → List Nat} (hsz : fat.length ≤ 0xfffffffc) (O : Owned fat own) :
    ∀ os : List ω, os.Nodup → (os.flatMap own).length + freeSectors fat ≤ fat.length := by
  intro os hos
  refine used_free ?_ fun x hx => ?_
  · induction os with
    | nil => exact List.nodup_nil
    | cons o os ih =>
      rw [List.nodup_cons] at hos
      rw [List.flatMap_cons]
      refine List.nodup_append.2 ⟨?_, ih hos.2, fun a ha b hb hab => ?_⟩
      · by_cases h : own o = []
        · rw [h]; exact List.nodup_nil
        · exact linked_nodup hsz (O.linked o h)
      · subst hab
        obtain ⟨o', ho', hb⟩ := List.mem_flatMap.1 hb
        exact O.apart o o' (fun h => hos.1 (h ▸ ho')) a ha hb
  · obtain ⟨o, _, hx⟩ := List.mem_flatMap.1 hx
    exact linked_used (O.linked o (List.ne_nil_of_mem hx)) hx

/-- C118: what was written takes room. Of every list of bytes, each in another stream, that were written to a storage: the blocks up to these
bytes are not among those reported as free. Streams below the threshold (4096 bytes) are kept in small blocks, see below. -/
theorem C118_room_partial (abi : Abi) (S : Session) (v : PathView) (hS : Session.MatchesPaths abi S v) (hf : Spec.Fits S.w)
    (written : List (List WStr × Nat)) (hn : (written.map (·.1)).Nodup)
    (hw : ∀ x ∈ written, ∃ size byte b, v.file x.1 = some (.stream size byte) ∧ S.w.io.header.threshold ≤ size ∧ byte x.2 = some b) :
    (written.map fun x => x.2 / S.w.io.bbat.blockSize + 1).sum + S.w.io.getStats.unusedBigBlocks ≤ S.w.io.getStats.bigBlocks := by
  obtain ⟨⟨u, kids, hM, hSh, hF, _⟩, _, _⟩ := hS
  obtain ⟨L, H, _⟩ := hM.holds
  have one : ∀ x ∈ written, ∃ k, Resolves kids (entryName S.w.io.dirtree) 0 x.1 k ∧
      x.2 / S.w.io.bbat.blockSize + 1 ≤ (L.big (.stream k)).length := fun x hx => by
    obtain ⟨size, byte, b, h1, h2, h3⟩ := hw x hx
    obtain ⟨k, hk⟩ := hF.complete _ _ h1
    obtain ⟨e, he, h4⟩ := hF.sound _ _ hk
    rw [h1] at h4
    injection h4 with h4
    cases hd : e.dir with
    | true => rw [hd, if_pos rfl] at h4; cases h4
    | false =>
      rw [hd, if_neg (by simp)] at h4
      injection h4 with h5 h6
      subst h5 h6
      obtain ⟨_, e', a, g1, g2, g3, _⟩ := H.known k _ _ h3
      have g4 := (H.entry k e' g1 g2).1
      unfold place at g3
      rw [if_neg (by omega)] at g3
      obtain ⟨c, g5, _⟩ := bigPlace_some H.bigPos g3
      exact ⟨k, hk, (List.getElem?_eq_some_iff.1 g5).1⟩
  have all : ∃ ks : List Nat, ks.Nodup ∧ (∀ k ∈ ks, ∃ x ∈ written, Resolves kids (entryName S.w.io.dirtree) 0 x.1 k) ∧
      (written.map fun x => x.2 / S.w.io.bbat.blockSize + 1).sum ≤ ((ks.map Owner.stream).flatMap L.big).length := by
    clear hw
    induction written with
    | nil => exact ⟨[], List.nodup_nil, (fun _ h => by cases h), (by simp)⟩
    | cons x xs ih =>
      rw [List.map_cons, List.nodup_cons] at hn
      obtain ⟨ks, h1, h2, h3⟩ := ih hn.2 fun y hy => one y (List.mem_cons_of_mem _ hy)
      obtain ⟨k, h4, h5⟩ := one x List.mem_cons_self
      refine ⟨k :: ks, List.nodup_cons.2 ⟨fun hk => ?_, h1⟩, fun j hj => ?_, ?_⟩
      · obtain ⟨y, hy, h6⟩ := h2 k hk
        exact hn.1 (List.mem_map.2 ⟨y, hy, resolves_path hSh _ rfl h6 h4⟩)
      · rcases List.mem_cons.1 hj with rfl | hj
        · exact ⟨x, List.mem_cons_self, h4⟩
        · obtain ⟨y, hy, h6⟩ := h2 j hj
          exact ⟨y, List.mem_cons_of_mem _ hy, h6⟩
      · rw [List.map_cons, List.sum_cons, List.map_cons, List.flatMap_cons, List.length_append]
        omega
  obtain ⟨ks, h1, _, h3⟩ := all
  have h4 := owned_free hf.1 H.big (ks.map Owner.stream) (List.Pairwise.map _ (fun _ _ h hab => h (Owner.stream.inj hab)) h1)
  show _ + S.w.io.bbat.unusedCount ≤ S.w.io.bbat.data.length
  rw [unused_free]
  omega

/-- C118: and what was written to streams below the threshold takes small blocks. -/
theorem C118_small_room_partial (abi : Abi) (S : Session) (v : PathView) (hS : Session.MatchesPaths abi S v) (hf : Spec.Fits S.w)
    (written : List (List WStr × Nat)) (hn : (written.map (·.1)).Nodup)
    (hw : ∀ x ∈ written, ∃ size byte b, v.file x.1 = some (.stream size byte) ∧ size < S.w.io.header.threshold ∧ byte x.2 = some b) :
    (written.map fun x => x.2 / S.w.io.sbat.blockSize + 1).sum + S.w.io.getStats.unusedSmallBlocks ≤ S.w.io.getStats.smallBlocks := by
  obtain ⟨⟨u, kids, hM, hSh, hF, _⟩, _, _⟩ := hS
  obtain ⟨L, H, _⟩ := hM.holds
  have one : ∀ x ∈ written, ∃ k, Resolves kids (entryName S.w.io.dirtree) 0 x.1 k ∧
      x.2 / S.w.io.sbat.blockSize + 1 ≤ (L.small k).length := fun x hx => by
    obtain ⟨size, byte, b, h1, h2, h3⟩ := hw x hx
    obtain ⟨k, hk⟩ := hF.complete _ _ h1
    obtain ⟨e, he, h4⟩ := hF.sound _ _ hk
    rw [h1] at h4
    injection h4 with h4
    cases hd : e.dir with
    | true => rw [hd, if_pos rfl] at h4; cases h4
    | false =>
      rw [hd, if_neg (by simp)] at h4
      injection h4 with h5 h6
      subst h5 h6
      obtain ⟨_, e', a, g1, g2, g3, _⟩ := H.known k _ _ h3
      have g4 := (H.entry k e' g1 g2).1
      unfold place at g3
      rw [if_pos (by omega)] at g3
      unfold smallPlace at g3
      cases g5 : (L.small k)[x.2 / S.w.io.sbat.blockSize]? with
      | none => rw [g5] at g3; cases g3
      | some c => exact ⟨k, hk, (List.getElem?_eq_some_iff.1 g5).1⟩
  have all : ∃ ks : List Nat, ks.Nodup ∧ (∀ k ∈ ks, ∃ x ∈ written, Resolves kids (entryName S.w.io.dirtree) 0 x.1 k) ∧
      (written.map fun x => x.2 / S.w.io.sbat.blockSize + 1).sum ≤ (ks.flatMap L.small).length := by
    clear hw
    induction written with
    | nil => exact ⟨[], List.nodup_nil, (fun _ h => by cases h), (by simp)⟩
    | cons x xs ih =>
      rw [List.map_cons, List.nodup_cons] at hn
      obtain ⟨ks, h1, h2, h3⟩ := ih hn.2 fun y hy => one y (List.mem_cons_of_mem _ hy)
      obtain ⟨k, h4, h5⟩ := one x List.mem_cons_self
      refine ⟨k :: ks, List.nodup_cons.2 ⟨fun hk => ?_, h1⟩, fun j hj => ?_, ?_⟩
      · obtain ⟨y, hy, h6⟩ := h2 k hk
        exact hn.1 (List.mem_map.2 ⟨y, hy, resolves_path hSh _ rfl h6 h4⟩)
      · rcases List.mem_cons.1 hj with rfl | hj
        · exact ⟨x, List.mem_cons_self, h4⟩
        · obtain ⟨y, hy, h6⟩ := h2 j hj
          exact ⟨y, List.mem_cons_of_mem _ hy, h6⟩
      · rw [List.map_cons, List.sum_cons, List.flatMap_cons, List.length_append]
        omega
  obtain ⟨ks, h1, _, h3⟩ := all
  have h4 := owned_free hf.2 H.small ks h1
  show _ + S.w.io.sbat.unusedCount ≤ S.w.io.sbat.data.length
  rw [unused_free]
  omega

/-- C118: so for every history of a storage just created. -/
theorem C118_new_partial (abi : Abi) (habi : abi = Abi.linux ∨ abi = Abi.windows) (w : Writer) (hw : Writer.fresh = .ok w) (S : Session)
    (requests : List Request) (answers : List Answer) (h : (⟨w, []⟩ : Session).serve abi requests = .ok (S, answers))
    (hs : PathView.empty.AllSensible abi requests answers) (hf : Spec.Fits S.w) (hlen : S.w.io.dirtree.length < 0xffffffff)
    (written : List (List WStr × Nat)) (hn : (written.map (·.1)).Nodup)
    (hwr : ∀ x ∈ written, ∃ size byte b, (PathView.empty.finally requests answers).file x.1 = some (.stream size byte) ∧
      S.w.io.header.threshold ≤ size ∧ byte x.2 = some b) :
    (written.map fun x => x.2 / S.w.io.bbat.blockSize + 1).sum + S.w.io.getStats.unusedBigBlocks ≤ S.w.io.getStats.bigBlocks := by
  rw [fresh_eq] at hw
  cases hw
  exact C118_room_partial abi S _ (serve_matches habi requests (fresh_paths abi) h hs hf hlen).2 hf written hn hwr

theorem long_known : ∃ byte, (PathView.empty.finally longRequests longAnswers).file [[97]] = some (.stream 30723 byte) ∧ byte 30720 = some 97 := by
  refine ⟨_, rfl, ?_⟩
  decide

/-- C118: the hypotheses are met by a storage with one stream of 30723 bytes; it takes 61 blocks or more. -/
example : ∃ S, (⟨freshWriter, []⟩ : Session).serve .windows longRequests = .ok (S, longAnswers) ∧
    30720 / S.w.io.bbat.blockSize + 1 + S.w.io.getStats.unusedBigBlocks ≤ S.w.io.getStats.bigBlocks := by
  obtain ⟨S, w', h1, h2, h3, h4, _⟩ := long_short
  have ht : (match (⟨freshWriter, []⟩ : Session).serve .windows longRequests with
      | .ok (S, _) => decide (S.w.io.header.threshold ≤ 30723)
      | _ => false) = true := by decide +kernel
  rw [h1] at ht
  obtain ⟨byte, g1, g2⟩ := long_known
  refine ⟨S, h1, ?_⟩
  have := C118_new_partial .windows (Or.inr rfl) freshWriter fresh_eq S longRequests longAnswers h1 h2 h3 h4 [([[97]], 30720)] (by simp)
    fun x hx => by
      simp only [List.mem_cons, List.not_mem_nil, or_false] at hx
      subst hx
      exact ⟨30723, byte, 97, g1, by simpa using ht, g2⟩
  simpa using this

def shortRequests : List Request := [.openStream [[97]] true 0, .use (.write 0 b!"abc")]

def shortAnswers : List Answer := [.opened (some 0), .reply (.wrote 3)]

/-- C118: the hypotheses of `C118_small_room_partial` are met by a storage with one stream of three bytes, that takes one of 128 small blocks. -/
example : ∃ S v, Session.MatchesPaths .windows S v ∧ Spec.Fits S.w ∧ (∃ byte, v.file [[97]] = some (.stream 3 byte) ∧ byte 2 = some 99) ∧
    3 < S.w.io.header.threshold ∧ S.w.io.getStats.smallBlocks = 128 ∧ S.w.io.getStats.unusedSmallBlocks = 127 := by
  have ht : (match (⟨freshWriter, []⟩ : Session).serve .windows shortRequests with
      | .ok (S, r) => decide (r = shortAnswers) && decide (S.w.io.bbat.data.length ≤ 0xfffffffc) && decide (S.w.io.sbat.data.length ≤ 0xfffffffc) &&
        decide (S.w.io.dirtree.length < 0xffffffff) && decide (3 < S.w.io.header.threshold) && decide (S.w.io.getStats.smallBlocks = 128) &&
        decide (S.w.io.getStats.unusedSmallBlocks = 127)
      | _ => false) = true := by decide +kernel
  split at ht
  case h_2 => cases ht
  case h_1 S r hr =>
  simp only [Bool.and_eq_true, decide_eq_true_eq] at ht
  obtain ⟨⟨⟨⟨⟨⟨h1, h2⟩, h3⟩, h4⟩, h5⟩, h6⟩, h7⟩ := ht
  subst h1
  have hs : PathView.empty.AllSensible .windows shortRequests shortAnswers := by
    simp only [PathView.AllSensible, shortRequests, shortAnswers]
    exact ⟨⟨by decide, by decide, fun h => by simp [PathView.empty]⟩, (by decide : 0 + 3 < 2 ^ 64), trivial⟩
  refine ⟨S, _, (serve_matches (Or.inr rfl) shortRequests (fresh_paths .windows) hr hs ⟨h2, h3⟩ h4).2, ⟨h2, h3⟩, ⟨_, rfl, ?_⟩, h5, h6, h7⟩
  decide

theorem sample_proper : ProperSlots Sample.dir := by
  intro i hi
  have h4 : Sample.dir.length / 128 = 4 := by decide +kernel
  rw [h4] at hi
  match i, hi with
  | 0, _ => exact Or.inr ⟨⟨5, by decide, by decide +kernel⟩, 22, by decide, Sample.num_check (by decide +kernel)⟩
  | 1, _ => exact Or.inr ⟨⟨2, by decide, by decide +kernel⟩, 4, by decide, Sample.num_check (by decide +kernel)⟩
  | 2, _ => exact Or.inl (by decide +kernel)
  | 3, _ => exact Or.inl (by decide +kernel)

/-- C118: a file with one stream of one byte has four slots in its directory, two of them free, and one small block in use. -/
example : ∃ io, openStorage .windows (some Sample.image) = .ok (.opened io) ∧ io.getStats = ⟨4, 2, 128, 124, 128, 127⟩ := by
  obtain ⟨io, h1, h2⟩ := C118_stats_partial .windows (by decide) _ _ _ _ _ _ Sample.is_image sample_proper (by decide +kernel)
  refine ⟨io, h1, h2.trans ?_⟩
  decide +kernel

/-- C118: a file without a mini FAT. -/
example : ∃ io, openStorage .windows (some Bare.image) = .ok (.opened io) ∧ io.getStats.smallBlocks = 128 ∧ io.getStats.unusedSmallBlocks = 128 :=
  C118_no_minifat_false .windows (by decide) _ _ _ _ _ Bare.is_image

end Fileid.Props
