import Verif.Lemmas.PoleMeta
import Verif.Lemmas.PoleFresh
import Verif.Props.PoleSample

/-!
# Properties of large compound files: C115 the list of the sectors of a large FAT
-/

namespace Fileid.Props

open Spec Pole

/-! ## C115 -/

theorem indexed_new {w : Writer} (h : Indexed w) {t : AllocTable} {new v : Nat} (ht : t.data = w.io.bbat.data) (hf : Free t.data new) (hv : v ≠ Avail) :
    new ∉ w.mbat_blocks ++ w.mbat_data ∧ (∀ b ∈ w.mbat_blocks ++ w.mbat_data, ∃ u, (t.set new v).data[b]? = some u ∧ u ≠ 0xffffffff) ∧
      ∃ u, (t.set new v).data[new]? = some u ∧ u ≠ 0xffffffff := by
  refine ⟨fun hm => free_not_used hf ?_, fun b hb => ?_, ?_⟩
  · rw [ht]; exact h.used new hm
  · exact (used_set hv).2 (Or.inl (by rw [ht]; exact h.used b hb))
  · exact (used_set hv).2 (Or.inr rfl)

/-- The list of a new storage is as the library makes it, and stays so whenever the FAT gets a further sector. -/
theorem C115_grows (w : Writer) (h : Indexed w) : Indexed w.addbbatBlock := by
  obtain ⟨f1, d1, z1⟩ := unused_free w.io.bbat
  have hm : MetaBat ≠ Avail := by decide
  obtain ⟨n1, u1, s1⟩ := indexed_new (t := w.io.bbat.unused.2) (v := MetaBat) h d1 (by rw [d1]; exact f1) hm
  have zs : (w.io.bbat.unused.2.set w.io.bbat.unused.1 MetaBat).blockSize = 512 := by
    rw [set_blockSize, z1]
    exact h.size
  have hc := h.count
  have hr := h.room
  unfold Writer.addbbatBlock Writer.unusedBig Writer.setBig Writer.setHeader
  dsimp only
  generalize ht1 : w.io.bbat.unused.2.set w.io.bbat.unused.1 MetaBat = t1 at u1 s1 zs
  generalize hnew : w.io.bbat.unused.1 = new at n1 s1
  split
  · refine ⟨zs, ?_, ?_, h.room, h.blocks, h.start, h.apart, u1⟩
    · show (w.io.header.bb_blocks.set _ _).length = _
      rw [List.length_set]; exact h.slots
    · show w.mbat_data.length = w.io.header.num_bat + 1 - 109
      omega
  · rw [zs]
    split
    · rename_i hge heq
      obtain ⟨f2, d2, z2⟩ := unused_free t1
      have hnu : ¬ Used t1.data t1.unused.1 := free_not_used f2
      have z3 : (t1.unused.2.set t1.unused.1 MetaBat).blockSize = 512 := by
        rw [set_blockSize, z2]
        exact zs
      have hu2 : ∀ b, Used t1.data b → Used (t1.unused.2.set t1.unused.1 MetaBat).data b := fun b hb =>
        (used_set hm).2 (Or.inl (by rw [d2]; exact hb))
      have hnot : t1.unused.1 ∉ w.mbat_blocks ++ w.mbat_data := fun hx => hnu (u1 _ hx)
      have hne : t1.unused.1 ≠ new := fun hx => hnu (by rw [hx]; exact s1)
      refine ⟨z3, h.slots, ?_, ?_, ?_, ?_, ?_, ?_⟩
      · show (w.mbat_data ++ [new]).length = w.io.header.num_bat + 1 - 109
        rw [List.length_append, List.length_singleton]; omega
      · show (w.mbat_blocks ++ [_]).length = ((w.mbat_data ++ [new]).length + 62) / 63
        rw [List.length_append, List.length_append, List.length_singleton, List.length_singleton]; omega
      · show w.io.header.num_mbat + 1 = (w.mbat_blocks ++ [_]).length
        rw [List.length_append, h.blocks]; rfl
      · intro b hb
        show (if w.io.header.num_mbat = 0 then _ else w.io.header.mbat_start) = b
        change (w.mbat_blocks ++ [t1.unused.1])[0]? = some b at hb
        have hbl := h.blocks
        cases hmb : w.mbat_blocks with
        | nil =>
          rw [hmb] at hbl hb
          rw [if_pos (by rw [hbl]; rfl)]
          cases hb
          rfl
        | cons x l =>
          rw [hmb] at hbl hb
          rw [if_neg (by rw [hbl, List.length_cons]; omega)]
          exact h.start b (by rw [hmb]; exact hb)
      · show ((w.mbat_blocks ++ [t1.unused.1]) ++ (w.mbat_data ++ [new])).Nodup
        have hp : List.Perm ((w.mbat_blocks ++ [t1.unused.1]) ++ (w.mbat_data ++ [new])) (t1.unused.1 :: new :: (w.mbat_blocks ++ w.mbat_data)) := by
          rw [List.append_assoc]
          refine List.perm_middle.trans (.cons _ ?_)
          show (w.mbat_blocks ++ (w.mbat_data ++ [new])).Perm _
          rw [← List.append_assoc]
          exact List.perm_append_singleton _ _
        rw [hp.nodup_iff, List.nodup_cons, List.nodup_cons, List.mem_cons]
        exact ⟨fun hx => hx.elim hne hnot, n1, h.apart⟩
      · show ∀ b ∈ (w.mbat_blocks ++ [t1.unused.1]) ++ (w.mbat_data ++ [new]), Used _ b
        intro b hb
        simp only [List.mem_append, List.mem_singleton] at hb
        rcases hb with (hb | rfl) | (hb | rfl)
        · exact hu2 b (u1 b (List.mem_append_left _ hb))
        · exact (used_set hm).2 (Or.inr rfl)
        · exact hu2 b (u1 b (List.mem_append_right _ hb))
        · exact hu2 _ s1
    · rename_i hge hne
      refine ⟨zs, h.slots, ?_, ?_, h.blocks, h.start, ?_, ?_⟩
      · show (w.mbat_data ++ [new]).length = w.io.header.num_bat + 1 - 109
        rw [List.length_append, List.length_singleton]; omega
      · show w.mbat_blocks.length = ((w.mbat_data ++ [new]).length + 62) / 63
        rw [List.length_append, List.length_singleton]; omega
      · show (w.mbat_blocks ++ (w.mbat_data ++ [new])).Nodup
        rw [← List.append_assoc, List.perm_append_singleton _ _ |>.nodup_iff, List.nodup_cons]
        exact ⟨n1, h.apart⟩
      · show ∀ b ∈ w.mbat_blocks ++ (w.mbat_data ++ [new]), Used _ b
        intro b hb
        rw [← List.append_assoc, List.mem_append, List.mem_singleton] at hb
        rcases hb with hb | rfl
        · exact u1 b hb
        · exact s1

/-- So it is in every new storage whose FAT grew by any number of sectors. -/
theorem C115_new (n : Nat) : Indexed (Writer.addbbatBlocks n freshWriter) := by
  have : ∀ (n : Nat) (w : Writer), Indexed w → Indexed (Writer.addbbatBlocks n w) := by
    intro n
    induction n with
    | zero => exact fun _ h => h
    | succ n ih => exact fun w h => ih _ (C115_grows w h)
  exact this n _ ⟨rfl, by decide, rfl, rfl, rfl, fun _ h => (by cases h), List.nodup_nil, fun _ h => (by cases h)⟩

theorem indexed_lt {w : Writer} (h : Indexed w) (hfit : w.io.bbat.data.length ≤ 0xfffffffc) {b : Nat} (hb : b ∈ w.mbat_blocks ++ w.mbat_data) :
    u32 b = b := by
  obtain ⟨v, hv, _⟩ := h.used b hb
  have := (List.getElem?_eq_some_iff.1 hv).1
  unfold u32
  omega

theorem sector_unique {file : Bytes} {ss n : Nat} {a b : Bytes} (h : Sector file ss n a) (h' : Sector file ss n b) : a = b := by
  have h1 := (at_iff _ _ _).1 h.1
  have h2 := (at_iff _ _ _).1 h'.1
  rw [h.2] at h1
  rw [h'.2] at h2
  exact h1.2.symm.trans h2.2

/-- What a flush leaves in the first sector of the list. -/
theorem flush_first {w w' : Writer} {junk : Nat → Nat → UInt8} (h : Indexed w) (hd : w.mbatDirty = true) (hn : 109 < w.io.header.num_bat)
    (hfit : w.io.bbat.data.length ≤ 0xfffffffc) (hf : w.flush junk = .ok w') :
    w'.io.header = w.io.header ∧ w'.mbat_data = w.mbat_data ∧ ∃ b rest bs, w.mbat_blocks = b :: rest ∧ w.io.header.mbat_start = b ∧
      Sector w'.io.file 512 b bs ∧ (∀ i v, w.mbat_data[i]? = some v → i < 63 → Num bs (4 * i) 4 v) ∧
      (63 ≤ w.mbat_data.length → ∀ x, w.mbat_blocks[1]? = some x → Num bs 252 4 x) := by
  obtain ⟨w4, S, h4⟩ := flush_last hf
  have hc := h.count
  have hr := h.room
  cases hmb : w.mbat_blocks with
  | nil => rw [hmb, List.length_nil] at hr; omega
  | cons b rest =>
    have hb : b ∉ rest := by
      have := h.apart
      rw [hmb, List.cons_append, List.nodup_cons] at this
      exact fun hx => this.1 (List.mem_append_left _ hx)
    obtain ⟨w5, bs, g1, g2, g3, g4, g5⟩ := flushMeta_first (junk := junk 2) (w := w4) (by rw [S.big]; exact h.size) (by rw [S.dirty]; exact hd)
      (b := b) (rest := rest) (by rw [S.blocks]; exact hmb) hb (by rw [S.blocks, S.data]; omega)
    rw [h4] at g1
    cases g1
    rw [S.data, S.blocks] at g5
    rw [S.data] at g4
    refine ⟨g2.header.trans S.header, g2.data.trans S.data, b, rest, bs, rfl, h.start b (by rw [hmb]; rfl), g3, fun i v hi hlt => ?_,
      fun h63 x hx => ?_⟩
    · have := g4 i v hi hlt
      rwa [indexed_lt h hfit (List.mem_append_right _ (List.mem_of_getElem? hi))] at this
    · rw [← hmb] at hx
      have := g5 h63 x hx
      rwa [indexed_lt h hfit (List.mem_append_left _ (List.mem_of_getElem? hx))] at this

/-- The words of a sector. -/
theorem words_of (bs : Bytes) (n : Nat) (h : bs.length = 4 * n) : ∃ ws, Words bs ws ∧ ws.length = n := by
  refine ⟨(List.range n).map fun i => leVal ((bs.drop (4 * i)).take 4), ⟨by simp [h], fun i w hi => ?_⟩, by simp⟩
  rw [List.getElem?_map] at hi
  cases hr : (List.range n)[i]? with
  | none => rw [hr] at hi; cases hi
  | some k =>
    rw [hr] at hi
    cases hi
    have hlt := (List.getElem?_eq_some_iff.1 hr).1
    rw [List.length_range] at hlt
    rw [List.getElem?_range hlt] at hr
    cases hr
    exact num_of_le (by omega)

/-- C115: when a storage is flushed whose FAT has up to 63 sectors more than the header has room for, the list of these sectors is in the file,
for everybody and for the library itself. Missing: longer lists, for which it is false. -/
theorem C115_listed_partial (w w' : Writer) (junk : Nat → Nat → UInt8) (h : Indexed w) (hd : w.mbatDirty = true) (hn : 109 < w.io.header.num_bat)
    (hn' : w.io.header.num_bat ≤ 172) (hfit : w.io.bbat.data.length ≤ 0xfffffffc) (hf : w.flush junk = .ok w') :
    Difat w'.io.file 512 w'.io.header.num_mbat w'.io.header.mbat_start (w'.io.header.num_bat - 109) w.mbat_data ∧
      getbbatBlocks w'.io.file w'.io.header 512 = .ok (w.io.header.bb_blocks ++ w.mbat_data) := by
  obtain ⟨hh, _, b, rest, bs, hmb, hst, hsec, hw, _⟩ := flush_first h hd hn hfit hf
  rw [hh]
  have hc := h.count
  have hr := h.room
  obtain ⟨ws, hws, hwl⟩ := words_of bs 128 (by rw [hsec.2])
  have hd : Difat w'.io.file 512 w.io.header.num_mbat w.io.header.mbat_start (w.io.header.num_bat - 109) w.mbat_data := by
    rw [hst, h.blocks, show w.mbat_blocks.length = 1 by omega]
    have : w.mbat_data = ws.take (w.io.header.num_bat - 109) := by
      apply List.ext_getElem?
      intro i
      rw [List.getElem?_take]
      by_cases hi : i < w.io.header.num_bat - 109
      · rw [if_pos hi]
        have h1 := List.getElem?_eq_getElem (l := w.mbat_data) (i := i) (by omega)
        have h2 := List.getElem?_eq_getElem (l := ws) (i := i) (by omega)
        rw [h1, h2, num_unique (hw i _ h1 (by omega)) (hws.2 i _ h2)]
      · rw [if_neg hi, List.getElem?_eq_none (by omega)]
    rw [this]
    exact .last hsec hws (by omega)
  refine ⟨hd, ?_⟩
  unfold getbbatBlocks
  have h1 := h.slots
  have h2 := h.blocks
  dsimp only
  rw [if_pos ⟨hn, by omega⟩, List.take_of_length_le (by omega), metaLoop_difat (by decide) hd _ _ true _ w.io.header.bb_blocks _ (by unfold newMem; exact List.length_replicate ..)
    (by omega) (Or.inl ⟨rfl, rfl, rfl⟩), Res.bind_ok, List.length_append, show w.io.header.num_bat - (w.io.header.bb_blocks.length + w.mbat_data.length) = 0 by
    omega, List.replicate_zero, List.append_nil]

/-- C115, what is false: that the list can be read when it is longer. The library puts the number of the next sector of the list behind 63 of
the sectors and goes on in the same sector; readers look for it at the end of the sector, and take it for a sector of the FAT. -/
theorem C115_listed_wrong (w w' : Writer) (junk : Nat → Nat → UInt8) (h : Indexed w) (hd : w.mbatDirty = true) (hn : 174 ≤ w.io.header.num_bat)
    (hfit : w.io.bbat.data.length ≤ 0xfffffffc) (hf : w.flush junk = .ok w') :
    (∀ k, ¬ Difat w'.io.file 512 k w'.io.header.mbat_start (w'.io.header.num_bat - 109) w.mbat_data) ∧
      getbbatBlocks w'.io.file w'.io.header 512 ≠ .ok (w.io.header.bb_blocks ++ w.mbat_data) := by
  obtain ⟨hh, _, b, rest, bs, hmb, hst, hsec, hw, hx⟩ := flush_first h hd (by omega) hfit hf
  rw [hh]
  have hc := h.count
  have hr := h.room
  have hs := h.slots
  have hbl := h.blocks
  have e1 := List.getElem?_eq_getElem (l := w.mbat_blocks) (i := 1) (by omega)
  generalize w.mbat_blocks[1] = x at e1
  have e2 := List.getElem?_eq_getElem (l := w.mbat_data) (i := 63) (by omega)
  generalize w.mbat_data[63] = y at e2
  have hne : x ≠ y := fun e => by
    subst e
    exact (List.nodup_append.1 h.apart).2.2 x (List.mem_of_getElem? e1) x (List.mem_of_getElem? e2) rfl
  have h63 := hx (by omega) x e1
  have word : ∀ ws, Words bs ws → ws[63]? = some x := fun ws hws => by
    have h0 := hws.1
    rw [hsec.2] at h0
    have h2 := List.getElem?_eq_getElem (l := ws) (i := 63) (by omega)
    rw [h2, num_unique (hws.2 63 _ h2) h63]
  constructor
  · intro k hk
    rw [hst] at hk
    generalize hneed : w.io.header.num_bat - 109 = need at hk
    generalize hmd : w.mbat_data = md at hk
    cases hk with
    | @last _ _ bs' ws hs' hws hlt =>
      have := sector_unique hsec hs'
      subst this
      rw [hmd, List.getElem?_take, if_pos (by omega), word ws hws] at e2
      exact hne (Option.some.inj e2)
    | @next _ _ nx _ bs' es rest' hs' hws hlt _ =>
      have := sector_unique hsec hs'
      subst this
      have h0 := hws.1
      rw [hsec.2, List.length_append, List.length_singleton] at h0
      have := word _ hws
      rw [List.getElem?_append_left (by omega)] at this
      rw [hmd, List.getElem?_append_left (by omega), this] at e2
      exact hne (Option.some.inj e2)
  · intro hg
    unfold getbbatBlocks at hg
    dsimp only at hg
    rw [if_pos ⟨by omega, by omega⟩, List.take_of_length_le (by omega), show w.io.header.num_mbat = (w.io.header.num_mbat - 1) + 1 by omega,
      metaLoop] at hg
    simp only [if_true] at hg
    rw [hst, loadBigBlock_sector hsec (by unfold newMem; exact List.length_replicate ..) (by decide), Res.bind_ok] at hg
    obtain ⟨ws, hws, hwl⟩ := words_of bs 128 (by rw [hsec.2])
    rw [show (512 / 4 : Nat) = ws.length by omega, metaWords_spec bs _ ws 0 _ (by rw [hsec.2]; omega) (fun i v hi => by
      rw [Nat.zero_add]; exact hws.2 i v hi) (by omega), Res.bind_ok] at hg
    obtain ⟨out, h1, h2⟩ := bind_inv hg
    have hlen : (w.io.header.bb_blocks ++ ws.take (w.io.header.num_bat - w.io.header.bb_blocks.length)).length =
        109 + min (w.io.header.num_bat - 109) 128 := by
      rw [List.length_append, List.length_take, hs, hwl]
    have := metaLoop_stays (i := 172) (x := x) _ _ _ _ h1 (by omega) (by omega) (by
      rw [List.getElem?_append_right (by omega), List.getElem?_take, if_pos (by omega), hs]
      exact word ws hws)
    injection h2 with h2
    have hlt := (List.getElem?_eq_some_iff.1 this).1
    have e3 : (w.io.header.bb_blocks ++ w.mbat_data)[172]? = some x := by
      rw [← h2, List.getElem?_append_left hlt]; exact this
    rw [List.getElem?_append_right (by omega), hs, e2] at e3
    exact hne (Option.some.inj e3).symm

/-- C115: exactly when the list can be written at all: there must not be more than one further sector of the FAT than 63 for every sector
of the list and 62 more; otherwise memory behind the end of the program's list is read. -/
theorem C115_defined_iff (w : Writer) (junk : Nat → UInt8) (hs : w.io.bbat.blockSize = 512) (hd : w.mbatDirty = true) (b : Nat) (rest : List Nat)
    (hb : w.mbat_blocks = b :: rest) (hn : b ∉ rest) :
    (∃ w', w.flushMeta junk = .ok w') ↔ w.mbat_data.length < 63 * (w.mbat_blocks.length + 1) := by
  refine ⟨fun ⟨w', h⟩ => Nat.lt_of_not_le fun hle => ?_, fun h => ?_⟩
  · obtain ⟨u, hu⟩ := flushMeta_ub (junk := junk) hs hd (by rw [hb]; exact List.cons_ne_nil _ _) hle
    rw [hu] at h
    cases h
  · obtain ⟨w', _, h1, _⟩ := flushMeta_first (junk := junk) hs hd hb hn h
    exact ⟨w', h1⟩

theorem metaSectors_difat {file : Bytes} {ss k s need : Nat} {entries : List Nat} (h64 : ss < 2 ^ 64) (h : Difat file ss k s need entries) :
    ∀ (num_bat mbat_start : Nat) (first : Bool) (m : Mem) (blocks blocks' sectors : List Nat), m.length = ss → blocks.length + need = num_bat →
      ((first = true ∧ s = mbat_start ∧ blocks' = blocks) ∨ (first = false ∧ blocks' = blocks ++ [s])) →
      ∃ more, metaSectors file ss num_bat mbat_start k first m blocks' sectors = .ok (sectors ++ s :: more) ∧ more.length + 1 = k := by
  induction h with
  | @last s need bs ws hs hw hn =>
    intro num_bat mbat_start first m blocks blocks' sectors hm hb hf
    have e1 : (if first then mbat_start else (blocks'.getLast?).getD 0) = s ∧ (if first then blocks' else blocks'.dropLast) = blocks := by
      rcases hf with ⟨rfl, rfl, rfl⟩ | ⟨rfl, rfl⟩ <;> simp
    rw [metaSectors]
    rw [e1.1, e1.2, loadBigBlock_sector hs hm h64, Res.bind_ok]
    have hwl : ss / 4 = ws.length := by have := hw.1; rw [hs.2] at this; omega
    rw [hwl, metaWords_spec bs num_bat ws 0 blocks (by rw [hw.1]; omega) (fun i w h => by simpa using hw.2 i w h) (by omega), Res.bind_ok]
    exact ⟨[], rfl, rfl⟩
  | @next k s next need bs es rest hs hw hn hd ih =>
    intro num_bat mbat_start first m blocks blocks' sectors hm hb hf
    have e1 : (if first then mbat_start else (blocks'.getLast?).getD 0) = s ∧ (if first then blocks' else blocks'.dropLast) = blocks := by
      rcases hf with ⟨rfl, rfl, rfl⟩ | ⟨rfl, rfl⟩ <;> simp
    rw [metaSectors]
    rw [e1.1, e1.2, loadBigBlock_sector hs hm h64, Res.bind_ok]
    have hwl : ss / 4 = (es ++ [next]).length := by have := hw.1; rw [hs.2] at this; omega
    rw [hwl, metaWords_spec bs num_bat (es ++ [next]) 0 blocks (by rw [hw.1]; omega) (fun i w h => by simpa using hw.2 i w h) (by omega),
      Res.bind_ok, List.take_of_length_le (by simp; omega), ← List.append_assoc]
    obtain ⟨more, h1, h2⟩ := ih num_bat mbat_start false (bs.map some) (blocks ++ es) _ (sectors ++ [s]) (by rw [List.length_map]; exact hs.2) (by rw [List.length_append]; omega) (Or.inr ⟨rfl, rfl⟩)
    exact ⟨next :: more, by rw [h1]; simp, by rw [List.length_cons, h2]⟩

/-- Every further sector of the FAT that a storage gets whose list has too few sectors leaves it with too few, and with changes to write. -/
theorem short_grows (n : Nat) : ∀ (w : Writer), w.io.bbat.blockSize = 512 → 109 ≤ w.io.header.num_bat → w.mbat_blocks ≠ [] →
    w.mbat_data.length = w.io.header.num_bat - 109 → 63 * (w.mbat_blocks.length + 1) ≤ w.mbat_data.length →
    let w' := Writer.addbbatBlocks n w
    w'.io.bbat.blockSize = 512 ∧ w'.mbat_blocks = w.mbat_blocks ∧ w.mbat_data.length ≤ w'.mbat_data.length ∧ (0 < n → w'.mbatDirty = true) := by
  induction n with
  | zero => exact fun w h1 _ _ _ _ => ⟨h1, rfl, Nat.le_refl _, fun h => absurd h (by decide)⟩
  | succ n ih =>
    intro w h1 h2 h3 h4 h5
    have size : (w.io.bbat.unused.2.set w.io.bbat.unused.1 MetaBat).blockSize = 512 := by
      rw [set_blockSize, (unused_free w.io.bbat).2.2]; exact h1
    have one : w.addbbatBlock.io.bbat.blockSize = 512 ∧ w.addbbatBlock.mbat_blocks = w.mbat_blocks ∧
        w.addbbatBlock.mbat_data.length = w.mbat_data.length + 1 ∧ w.addbbatBlock.mbatDirty = true ∧
        w.addbbatBlock.io.header.num_bat = w.io.header.num_bat + 1 := by
      unfold Writer.addbbatBlock Writer.unusedBig Writer.setBig Writer.setHeader
      dsimp only
      rw [if_neg (by omega), size, if_neg (by omega)]
      exact ⟨size, rfl, List.length_append, rfl, rfl⟩
    obtain ⟨o1, o2, o3, o4, o5⟩ := one
    obtain ⟨g1, g2, g3, g4⟩ := ih w.addbbatBlock o1 (by omega) (by rw [o2]; exact h3) (by omega) (by rw [o2]; omega)
    refine ⟨g1, g2.trans o2, by show _ ≤ (Writer.addbbatBlocks n w.addbbatBlock).mbat_data.length; omega, fun _ => ?_⟩
    show (Writer.addbbatBlocks n w.addbbatBlock).mbatDirty = true
    cases n with
    | zero => exact o4
    | succ n => exact g4 (by omega)

/-- C115, what is false: that the list of a file by another program can be written. Other programs use all 127 places of a sector. A file
with so many sectors in its FAT that the library would have used more sectors for the list can be opened; but when the FAT gets a further
sector, and the file is flushed, memory behind the end of the program's list is read: 235 sectors are enough. -/
theorem C115_foreign_wrong (file : Bytes) (hd : CfbHeader) (fat minifat : List Nat) (dir : Bytes) (mini : List Nat)
    (himage : CfbImage file hd fat minifat dir mini) (hs : hd.shift = 9) (hmany : 63 * (hd.difatCount + 1) ≤ hd.fatCount - 109)
    (n : Nat) (hn : 0 < n) (junk : Nat → Nat → UInt8) :
    ∃ io, openStorage .windows (some file) = .ok (.opened io) ∧ ∀ w', (Writer.addbbatBlocks n (reopened io)).flush junk ≠ .ok w' := by
  obtain ⟨io, h1, h2, _, h4, _, _, _, _, _, h10, _⟩ := C68_open .windows (by decide) file hd fat minifat dir mini himage
  refine ⟨io, h1, ?_⟩
  have hst := himage.stored
  obtain ⟨hh, l0, _, _, _, _, l5, _, _, _, _, l10, l11, l12, l13⟩ := C38_layout file hst.length
  rw [l0] at h10
  cases h10
  have b1 : io.header.bb_blocks = hd.difat := by
    apply List.ext_getElem (by rw [l12, hst.slots])
    intro i hi hi'
    exact num_unique (l13 i _ (List.getElem?_eq_getElem hi)) (hst.difat i _ (List.getElem?_eq_getElem hi'))
  have b2 := num_unique l5 hst.fatCount
  have b3 := num_unique l10 hst.difatStart
  have b4 := num_unique l11 hst.difatCount
  have hsl := hst.slots
  obtain ⟨fs, fb, hfs, hfl, _, _⟩ := himage.hfat
  rcases hfs with ⟨hle, _⟩ | ⟨hgt, rest, hdif, rfl⟩
  · omega
  rw [hs] at h4 hdif
  rw [List.length_append] at hfl
  have hk : 0 < hd.difatCount := by
    generalize hd.difatCount = k at hdif
    cases hdif <;> omega
  have hloop := metaLoop_difat (by decide) hdif hd.fatCount hd.difatStart true (newMem 512) hd.difat hd.difat
    (by unfold newMem; exact List.length_replicate ..) (by omega) (Or.inl ⟨rfl, rfl, rfl⟩)
  obtain ⟨more, hsec, hml⟩ := metaSectors_difat (by decide) hdif hd.fatCount hd.difatStart true (newMem 512) hd.difat hd.difat []
    (by unfold newMem; exact List.length_replicate ..) (by omega) (Or.inl ⟨rfl, rfl, rfl⟩)
  rw [List.nil_append] at hsec
  have members : metaMembers io = (hd.difatStart :: more, rest) := by
    unfold metaMembers
    dsimp only
    rw [b1, b2, b3, b4, h2, show io.bbat.blockSize = 512 from h4, if_pos ⟨hgt, hk⟩, List.take_of_length_le (by omega)]
    rw [show (512 : Nat) = 2 ^ 9 from rfl, hsec, hloop]
    show (_, (hd.difat ++ rest).drop 109) = _
    rw [List.drop_append_of_le_length (by omega), List.drop_of_length_le (by omega)]
    rfl
  have m1 : (reopened io).mbat_blocks = hd.difatStart :: more := by show (metaMembers io).1 = _; rw [members]
  have m2 : (reopened io).mbat_data = rest := by show (metaMembers io).2 = _; rw [members]
  intro w' hw
  obtain ⟨w4, S, h5⟩ := flush_last hw
  obtain ⟨g1, g2, g3, g4⟩ := short_grows n (reopened io) h4 (by show 109 ≤ io.header.num_bat; omega) (by rw [m1]; exact List.cons_ne_nil _ _)
    (by rw [m2]; show rest.length = io.header.num_bat - 109; omega) (by rw [m1, m2, List.length_cons]; omega)
  obtain ⟨u, hu⟩ := flushMeta_ub (junk := junk 2) (w := w4) (by rw [S.big]; exact g1) (by rw [S.dirty]; exact g4 hn)
    (by rw [S.blocks, g2, m1]; exact List.cons_ne_nil _ _) (by rw [S.blocks, S.data, g2, m1, List.length_cons]; rw [m2] at g3; omega)
  rw [hu] at h5
  cases h5

/-! ### The hypotheses are met -/

theorem grown_one (w : Writer) (hd : 109 < w.io.header.num_bat → w.mbatDirty = true) :
    w.addbbatBlock.io.header.num_bat = w.io.header.num_bat + 1 ∧ (109 < w.addbbatBlock.io.header.num_bat → w.addbbatBlock.mbatDirty = true) := by
  unfold Writer.addbbatBlock Writer.unusedBig Writer.setBig Writer.setHeader
  dsimp only
  split
  · refine ⟨rfl, fun h => hd ?_⟩
    change 109 < w.io.header.num_bat + 1 at h
    omega
  · split <;> exact ⟨rfl, fun _ => rfl⟩

theorem grown (n : Nat) : ∀ w : Writer, (109 < w.io.header.num_bat → w.mbatDirty = true) →
    (Writer.addbbatBlocks n w).io.header.num_bat = w.io.header.num_bat + n ∧
    (109 < (Writer.addbbatBlocks n w).io.header.num_bat → (Writer.addbbatBlocks n w).mbatDirty = true) := by
  induction n with
  | zero => exact fun w hd => ⟨rfl, hd⟩
  | succ n ih =>
    intro w hd
    obtain ⟨h1, h2⟩ := grown_one w hd
    obtain ⟨h3, h4⟩ := ih w.addbbatBlock h2
    exact ⟨by show (Writer.addbbatBlocks n w.addbbatBlock).io.header.num_bat = _; rw [h3, h1]; omega, h4⟩

-- A new storage whose FAT grew to any number of sectors above 109: the list is as the library makes it, and has to be written.
example (n : Nat) (hn : 109 ≤ n) : Indexed (Writer.addbbatBlocks n freshWriter) ∧ (Writer.addbbatBlocks n freshWriter).mbatDirty = true ∧
    (Writer.addbbatBlocks n freshWriter).io.header.num_bat = n + 1 := by
  obtain ⟨h1, h2⟩ := grown n freshWriter (by decide)
  have h0 : freshWriter.io.header.num_bat = 1 := by decide
  exact ⟨C115_new n, h2 (by omega), by omega⟩

/-- A storage in which only the list has to be written: the sectors of the list are the first, then come those of the FAT. -/
def listWriter (blocks sectors : Nat) : Writer where
  io := { file := [], header := { num_bat := 109 + sectors, num_mbat := blocks, mbat_start := 0 },
          bbat := { blockSize := 512, data := List.replicate (blocks + sectors) MetaBat }, sbat := { blockSize := 64 }, dirtree := [], sb_blocks := [] }
  writeable := true
  mbat_blocks := List.range blocks
  mbat_data := (List.range sectors).map (· + blocks)
  mbatDirty := true

theorem list_indexed (sectors : Nat) : Indexed (listWriter ((sectors + 62) / 63) sectors) := by
  have hlen : (List.range ((sectors + 62) / 63) ++ (List.range sectors).map (· + (sectors + 62) / 63)) = List.range ((sectors + 62) / 63 + sectors) := by
    rw [List.range_add]
    congr 1
    exact List.map_congr_left fun i _ => Nat.add_comm _ _
  refine ⟨rfl, List.length_replicate .., ?_, ?_, ?_, ?_, ?_, ?_⟩
  · show ((List.range sectors).map _).length = 109 + sectors - 109
    rw [List.length_map, List.length_range]; omega
  · show (List.range _).length = (((List.range sectors).map _).length + 62) / 63
    rw [List.length_map, List.length_range, List.length_range]
  · show _ = (List.range _).length
    rw [List.length_range]; rfl
  · intro b hb
    change (List.range ((sectors + 62) / 63))[0]? = some b at hb
    have hlt := (List.getElem?_eq_some_iff.1 hb).1
    rw [List.length_range] at hlt
    rw [List.getElem?_range hlt] at hb
    exact Option.some.inj hb
  · show (List.range _ ++ (List.range sectors).map _).Nodup
    rw [hlen]
    exact List.nodup_range
  · intro b hb
    change b ∈ List.range _ ++ (List.range sectors).map _ at hb
    rw [hlen, List.mem_range] at hb
    refine ⟨MetaBat, ?_, by decide⟩
    show (List.replicate _ MetaBat)[b]? = _
    rw [List.getElem?_replicate, if_pos hb]

/-- It can be flushed. -/
theorem list_flush (sectors : Nat) (h : 0 < sectors) (junk : Nat → Nat → UInt8) :
    ∃ w', (listWriter ((sectors + 62) / 63) sectors).flush junk = .ok w' := by
  have hr : (listWriter ((sectors + 62) / 63) sectors).mbat_blocks = 0 :: (List.range ((sectors + 62) / 63 - 1)).map Nat.succ := by
    show List.range _ = _
    rw [← List.range_succ_eq_map, show (sectors + 62) / 63 - 1 + 1 = (sectors + 62) / 63 by omega]
  obtain ⟨w', hw⟩ := (C115_defined_iff (listWriter ((sectors + 62) / 63) sectors) (junk 2) rfl rfl 0 _ hr (by simp)).2 (by
    show ((List.range sectors).map _).length < 63 * ((List.range _).length + 1)
    rw [List.length_map, List.length_range, List.length_range]; omega)
  exact ⟨w', hw⟩

-- Both theorems apply to it.
example (junk : Nat → Nat → UInt8) : ∃ w', (listWriter 1 63).flush junk = .ok w' ∧
    Difat w'.io.file 512 w'.io.header.num_mbat w'.io.header.mbat_start (w'.io.header.num_bat - 109) (listWriter 1 63).mbat_data := by
  obtain ⟨w', hw⟩ := list_flush 63 (by decide) junk
  exact ⟨w', hw, (C115_listed_partial _ w' junk (list_indexed 63) rfl (by decide) (by decide) (by decide) hw).1⟩

example (junk : Nat → Nat → UInt8) : ∃ w', (listWriter 2 65).flush junk = .ok w' ∧
    ∀ k, ¬ Difat w'.io.file 512 k w'.io.header.mbat_start (w'.io.header.num_bat - 109) (listWriter 2 65).mbat_data := by
  obtain ⟨w', hw⟩ := list_flush 65 (by decide) junk
  exact ⟨w', hw, (C115_listed_wrong _ w' junk (list_indexed 65) rfl (by decide) (by decide) hw).1⟩

theorem words_append {a b : Bytes} {u v : List Nat} (h : Words a u) (h' : Words b v) : Words (a ++ b) (u ++ v) := by
  have h1 := h.1
  refine ⟨by rw [List.length_append, List.length_append, h.1, h'.1]; omega, fun i x hi => ?_⟩
  by_cases hlt : i < u.length
  · rw [List.getElem?_append_left hlt] at hi
    have := h.2 i x hi
    have hl := this.length_le
    exact num_congr this (by decide) fun k hk => List.getElem?_append_left (by omega)
  · rw [List.getElem?_append_right (by omega)] at hi
    refine num_congr (h'.2 _ x hi) (by decide) fun k hk => ?_
    rw [List.getElem?_append_right (by omega)]
    congr 1
    omega

namespace Wide

/-- A FAT sector, the first of the file; sector 1 is the directory and sector 2 lists the FAT. -/
def words : List Nat := [0xfffffffd, 0xfffffffe, 0xfffffffc, 0xfffffffe] ++ List.replicate 124 0xffffffff

def list : List Nat := List.replicate 126 0 ++ [0xffffffff, 0xfffffffe]

def image : Bytes :=
  [0xd0, 0xcf, 0x11, 0xe0, 0xa1, 0xb1, 0x1a, 0xe1] ++ List.replicate 16 0 ++ leBytes 2 0x3e ++ leBytes 2 3 ++
    leBytes 2 0xfffe ++ leBytes 2 9 ++ leBytes 2 6 ++ List.replicate 10 0 ++ leBytes 4 235 ++ leBytes 4 1 ++
    leBytes 4 0 ++ leBytes 4 4096 ++ leBytes 4 0xfffffffe ++ leBytes 4 0 ++ leBytes 4 2 ++ leBytes 4 1 ++ List.replicate 436 0 ++
    words.flatMap (leBytes 4) ++ Sample.dir ++ list.flatMap (leBytes 4)

def hd : CfbHeader := ⟨9, 6, 235, 1, 4096, 0xfffffffe, 2, 1, List.replicate 109 0⟩

def fat : List Nat := (List.replicate 235 words).flatten

theorem fat_length : fat.length = 30080 := by
  have all : ∀ n, (List.replicate n words).flatten.length = 128 * n := by
    intro n
    induction n with
    | zero => rfl
    | succ n ih =>
      rw [List.replicate_succ, List.flatten_cons, List.length_append, ih, show words.length = 128 by decide +kernel]
      omega
  exact all 235

theorem fat_first (i : Nat) (hi : i < 128) : fat[i]? = words[i]? := by
  have all : ∀ n, (List.replicate (n + 1) words).flatten[i]? = words[i]? := by
    intro n
    rw [List.replicate_succ, List.flatten_cons, List.getElem?_append_left (by rw [show words.length = 128 by decide +kernel]; exact hi)]
  exact all 234

theorem image_length : image.length = 2048 := by decide +kernel

/-- A compound file whose FAT has 235 sectors (to keep it small they are the same). -/
theorem is_image : CfbImage image hd fat [] Sample.dir [3] := by
  have hl := image_length
  have hw : Words (words.flatMap (leBytes 4)) words := Sample.words_check (by decide +kernel) (by decide +kernel)
  have hsec : Sector image 512 0 (words.flatMap (leBytes 4)) := by
    have := Sample.sector_check (file := image) (ss := 512) (n := 0) (by rw [hl]; decide)
    rwa [show (image.drop (512 * (0 + 1))).take 512 = words.flatMap (leBytes 4) by decide +kernel] at this
  have many : ∀ n, ∃ bs, Content image 512 (List.replicate n 0) bs ∧ Words bs (List.replicate n words).flatten := by
    intro n
    induction n with
    | zero => exact ⟨[], .nil, rfl, fun i w h => by cases h⟩
    | succ n ih =>
      obtain ⟨bs, h1, h2⟩ := ih
      exact ⟨_, .cons hsec h1, words_append hw h2⟩
  have fat1 : fat[1]? = some 0xfffffffe := by rw [fat_first 1 (by decide)]; rfl
  have fat3 : fat[3]? = some 0xfffffffe := by rw [fat_first 3 (by decide)]; rfl
  refine ⟨?_, ?_, ?_, by rw [fat_length]; decide, ?_, ?_, ?_⟩
  · refine ⟨?_, by omega, Sample.num_check (by decide +kernel), Sample.num_check (by decide +kernel), Sample.num_check (by decide +kernel),
      Sample.num_check (by decide +kernel), Sample.num_check (by decide +kernel), Sample.num_check (by decide +kernel),
      Sample.num_check (by decide +kernel), Sample.num_check (by decide +kernel), by decide +kernel, ?_⟩
    · exact (at_iff _ _ _).2 (by decide +kernel)
    · intro i b hb
      have h2 : hd.difat = (List.range 109).map fun i => leVal ((image.drop (0x4c + 4 * i)).take 4) := by decide +kernel
      rw [h2] at hb
      have hi : i < 109 := by have := (List.getElem?_eq_some_iff.1 hb).1; simpa using this
      rw [List.getElem?_map, List.getElem?_range hi] at hb
      simp at hb
      subst hb
      exact num_of_le (by omega)
  · exact ⟨rfl, by decide, fun h => absurd h (by decide), by decide, by decide⟩
  · obtain ⟨bs, h1, h2⟩ := many 235
    refine ⟨List.replicate 235 0, bs, Or.inr ⟨by decide, List.replicate 126 0, ?_, by decide +kernel⟩, by decide +kernel, h1, h2⟩
    have hls : Sector image 512 2 (list.flatMap (leBytes 4)) := by
      have := Sample.sector_check (file := image) (ss := 512) (n := 2) (by rw [hl]; decide)
      rwa [show (image.drop (512 * (2 + 1))).take 512 = list.flatMap (leBytes 4) by decide +kernel] at this
    exact .last (ws := list) (need := 126) hls (Sample.words_check (by decide +kernel) (by decide +kernel)) (by decide +kernel)
  · exact ⟨[], [], Or.inr ⟨by rw [fat_length]; decide, rfl⟩, .nil, rfl, fun i w h => by cases h⟩
  · exact ⟨[1], .last fat1 (by rw [fat_length]; decide), Sample.content_one (by rw [hl]; decide) (by decide +kernel)⟩
  · exact ⟨3, Sample.num_check (by decide +kernel), Or.inl (.last fat3 (by rw [fat_length]; decide))⟩

end Wide

example (junk : Nat → Nat → UInt8) :
    ∃ io, openStorage .windows (some Wide.image) = .ok (.opened io) ∧ ∀ w', (Writer.addbbatBlocks 1 (reopened io)).flush junk ≠ .ok w' :=
  C115_foreign_wrong _ _ _ _ _ _ Wide.is_image rfl (by decide) 1 (by decide) junk

end Fileid.Props
