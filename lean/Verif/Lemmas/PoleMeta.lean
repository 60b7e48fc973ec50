import Verif.Lemmas.PoleFlush
import Verif.Lemmas.PoleGood
import Verif.Spec.CfbMeta

/-!
# Lemmas about the sectors that list the sectors of a large FAT
-/

namespace Fileid.Pole

open Spec Props

/-- A word is written into a buffer that is full of bytes. -/
theorem writeU32_bytes (bs : Bytes) (i v : Nat) (hv : v < 2 ^ 32) (h : i + 4 ≤ bs.length) :
    ∃ bs' : Bytes, writeU32 (bs.map some) i v = .ok (bs'.map some) ∧ bs'.length = bs.length ∧ Num bs' i 4 v ∧
      ∀ j, (j < i ∨ i + 4 ≤ j) → bs'[j]? = bs[j]? := by
  have hl : (leBytes 4 v).length = 4 := leBytes_length 4 v
  have ht : (bs.take i).length = i := by rw [List.length_take]; omega
  refine ⟨bs.take i ++ leBytes 4 v ++ bs.drop (i + 4), ?_, ?_, ?_, ?_⟩
  · rw [writeU32_eq, mwr_ok (by rw [List.length_map, List.length_map, hl]; exact h), List.length_map, hl]
    simp only [List.map_append, List.map_take, List.map_drop]
  · simp only [List.length_append, List.length_take, List.length_drop, hl]; omega
  · refine ⟨leBytes 4 v, ⟨bs.take i, bs.drop (i + 4), rfl, ht⟩, hl, ?_⟩
    rw [← leVal_eq, leVal_leBytes]
    exact Nat.mod_eq_of_lt hv
  · intro j hj
    rcases hj with hj | hj
    · rw [List.append_assoc, List.getElem?_append_left (by omega), List.getElem?_take, if_pos hj]
    · rw [List.getElem?_append_right (by rw [List.length_append]; omega), List.getElem?_drop, List.length_append, ht, hl]
      congr 1
      omega

/-- The words of the meta blocks, when there is room: the first are the blocks given, and behind 63 of them comes the next meta block. -/
theorem metaFill_ok (mb : List Nat) : ∀ (ds : List Nat) (bs : Bytes) (s d b : Nat), d < 63 → ds.length + d < 63 * (mb.length + 1 - b) →
    s + 4 * (ds.length + (ds.length + d) / 63) ≤ bs.length →
    ∃ bs' : Bytes, metaFill (bs.map some) 63 mb s d b ds = .ok (bs'.map some) ∧ bs'.length = bs.length ∧ (∀ j, j < s → bs'[j]? = bs[j]?) ∧
      (∀ i v, ds[i]? = some v → i + d < 63 → Num bs' (s + 4 * i) 4 (u32 v)) ∧
      (63 ≤ ds.length + d → ∀ x, mb[b + 1]? = some x → Num bs' (s + 4 * (63 - d)) 4 (u32 x)) := by
  have kept : ∀ {c c' : Bytes} {i v n : Nat}, Num c i 4 v → i + 4 ≤ n → (∀ j, j < n → c'[j]? = c[j]?) → Num c' i 4 v :=
    fun h hi hs => num_congr h (by decide) fun k hk => hs _ (by omega)
  have small : ∀ x, u32 x < 2 ^ 32 := fun x => by unfold u32; omega
  intro ds
  induction ds with
  | nil =>
    intro bs s d b hd _ _
    exact ⟨bs, rfl, rfl, fun _ _ => rfl, fun i v h => (by cases h), fun h => by rw [List.length_nil] at h; omega⟩
  | cons v ds ih =>
    intro bs s d b hd hroom hlen
    rw [List.length_cons] at hroom hlen
    obtain ⟨b1, w1, l1, n1, o1⟩ := writeU32_bytes bs s (u32 v) (small v) (by omega)
    rw [metaFill, w1, Res.bind_ok]
    by_cases hc : d + 1 = 63
    · rw [if_pos hc]
      have hb : b + 1 ≤ mb.length := by omega
      have next : ∃ nx, nx < 2 ^ 32 ∧ metaNext mb (b + 1) = .ok nx ∧ ∀ x, mb[b + 1]? = some x → nx = u32 x := by
        unfold metaNext
        by_cases he : b + 1 = mb.length
        · refine ⟨Eof, by decide, by rw [if_pos he], fun x hx => ?_⟩
          rw [List.getElem?_eq_none (by omega)] at hx
          cases hx
        · rw [if_neg he, List.getElem?_eq_getElem (by omega)]
          exact ⟨_, small _, rfl, fun x hx => by cases hx; rfl⟩
      obtain ⟨nx, hnx, hn, hx⟩ := next
      rw [hn, Res.bind_ok]
      obtain ⟨b2, w2, l2, n2, o2⟩ := writeU32_bytes b1 (s + 4) nx hnx (by omega)
      rw [w2, Res.bind_ok]
      obtain ⟨b3, w3, l3, o3, n3, _⟩ := ih b2 (s + 8) 0 (b + 1) (by decide) (by omega) (by omega)
      refine ⟨b3, w3, by omega, fun j hj => ?_, fun i u hi hid => ?_, fun _ x hx' => ?_⟩
      · rw [o3 j (by omega), o2 j (by omega), o1 j (by omega)]
      · have : i = 0 := by omega
        subst this
        cases hi
        refine kept (n := s + 4) n1 (by omega) fun j hj => ?_
        rw [o3 j (by omega), o2 j (by omega)]
      · rw [← hx x hx', show s + 4 * (63 - d) = s + 4 by omega]
        exact kept (n := s + 8) n2 (by omega) fun j hj => o3 j hj
    · rw [if_neg hc]
      obtain ⟨b3, w3, l3, o3, n3, x3⟩ := ih b1 (s + 4) (d + 1) b (by omega) (by omega) (by
        rw [show ds.length + (d + 1) = ds.length + 1 + d by omega]; omega)
      refine ⟨b3, w3, by omega, fun j hj => ?_, fun i u hi hid => ?_, fun hle x hx' => ?_⟩
      · rw [o3 j (by omega), o1 j (by omega)]
      · cases i with
        | zero => cases hi; exact kept (n := s + 4) n1 (by omega) o3
        | succ i =>
          have := n3 i u (by simpa using hi) (by omega)
          rwa [show s + 4 + 4 * i = s + 4 * (i + 1) by omega] at this
      · have := x3 (by rw [List.length_cons] at hle; omega) x hx'
        rwa [show s + 4 + 4 * (63 - (d + 1)) = s + 4 * (63 - d) by omega] at this

theorem writeU32_cases (m : Mem) (i v : Nat) : (∃ m', writeU32 m i v = .ok m') ∨ ∃ u, writeU32 m i v = .ub u := by
  rw [writeU32_eq]
  unfold mwr
  split
  · exact Or.inl ⟨_, rfl⟩
  · exact Or.inr ⟨_, rfl⟩

/-- With too few meta blocks the list of meta blocks is read behind its end. -/
theorem metaFill_ub (mb : List Nat) : ∀ (ds : List Nat) (m : Mem) (s d b : Nat), d < 63 → b ≤ mb.length →
    63 * (mb.length + 1 - b) ≤ ds.length + d → ∃ u, metaFill m 63 mb s d b ds = .ub u := by
  intro ds
  induction ds with
  | nil => intro m s d b hd hb h; rw [List.length_nil] at h; omega
  | cons v ds ih =>
    intro m s d b hd hb h
    rw [List.length_cons] at h
    rw [metaFill]
    rcases writeU32_cases m s (u32 v) with ⟨m1, h1⟩ | ⟨u, h1⟩
    · rw [h1, Res.bind_ok]
      by_cases hc : d + 1 = 63
      · rw [if_pos hc]
        by_cases hlt : b < mb.length
        · have next : ∃ nx, metaNext mb (b + 1) = .ok nx := by
            unfold metaNext
            by_cases he : b + 1 = mb.length
            · exact ⟨_, by rw [if_pos he]⟩
            · rw [if_neg he, List.getElem?_eq_getElem (by omega)]
              exact ⟨_, rfl⟩
          obtain ⟨nx, hn⟩ := next
          rw [hn, Res.bind_ok]
          rcases writeU32_cases m1 (s + 4) nx with ⟨m2, h2⟩ | ⟨u, h2⟩
          · rw [h2, Res.bind_ok]
            exact ih m2 (s + 8) 0 (b + 1) (by decide) (by omega) (by omega)
          · rw [h2]; exact ⟨u, rfl⟩
        · have : metaNext mb (b + 1) = .ub .oobRead := by
            unfold metaNext
            rw [if_neg (by omega), List.getElem?_eq_none (by omega)]
          rw [this]
          exact ⟨_, rfl⟩
      · rw [if_neg hc]
        exact ih m1 (s + 4) (d + 1) b (by omega) hb (by omega)
    · rw [h1]; exact ⟨u, rfl⟩

/-- Sectors that are written one by one leave the others as they are. -/
theorem saveLoop_other (bs : Nat) (blocks : List Nat) : ∀ (file data : Bytes) (b : Nat), b ∉ blocks → ∀ (k : Nat) (v : UInt8), k < bs →
    file[bs * (b + 1) + k]? = some v → (saveLoop file bs blocks 0 data)[bs * (b + 1) + k]? = some v := by
  induction blocks with
  | nil => intro file data b _ k v _ h; exact h
  | cons x rest ih =>
    intro file data b hb k v hk h
    rw [saveLoop]
    split
    · refine ih _ _ b (fun h => hb (List.mem_cons_of_mem _ h)) k v hk (putAt_out h ?_)
      have hne : b ≠ x := fun e => hb (e ▸ List.mem_cons_self ..)
      rw [Nat.add_zero, Nat.sub_zero, (take_if data bs).1, List.length_take]
      rcases Nat.lt_or_gt_of_ne hne with h1 | h1
      · left
        have := Nat.mul_le_mul (Nat.le_refl bs) (show b + 1 + 1 ≤ x + 1 by omega)
        rw [Nat.mul_succ] at this
        omega
      · right
        have := Nat.mul_le_mul (Nat.le_refl bs) (show x + 1 + 1 ≤ b + 1 by omega)
        rw [Nat.mul_succ] at this
        omega
    · exact h

/-- The first of the sectors that are written holds the first bytes. -/
theorem saveLoop_first {file data : Bytes} {bs b : Nat} {rest : List Nat} (hb : b ∉ rest) (hl : bs ≤ data.length) (h0 : 0 < bs) :
    Sector (saveLoop file bs (b :: rest) 0 data) bs b (data.take bs) := by
  have hlen : (data.take bs).length = bs := by rw [List.length_take]; omega
  have key : ∀ k, k < bs → (saveLoop file bs (b :: rest) 0 data)[bs * (b + 1) + k]? = (data.take bs)[k]? := by
    intro k hk
    rw [saveLoop, if_pos (by omega), Nat.add_zero, Nat.sub_zero]
    dsimp only
    rw [(take_if data bs).1, (take_if data bs).2, List.getElem?_eq_getElem (l := data.take bs) (by omega)]
    refine saveLoop_other bs rest _ _ b hb k _ hk ?_
    rw [putAt_in (by omega), List.getElem?_eq_getElem (by omega)]
  refine ⟨?_, hlen⟩
  have hk := key (bs - 1) (by omega)
  rw [List.getElem?_eq_getElem (l := data.take bs) (by omega)] at hk
  have hle := (List.getElem?_eq_some_iff.1 hk).1
  have := at_of_le (content := saveLoop file bs (b :: rest) 0 data) (off := bs * (b + 1)) (n := bs) (by omega)
  suffices e : ((saveLoop file bs (b :: rest) 0 data).drop (bs * (b + 1))).take bs = data.take bs by rw [e] at this; exact this
  apply List.ext_getElem?
  intro k
  by_cases hk : k < bs
  · rw [List.getElem?_take, if_pos hk, List.getElem?_drop, key k hk]
  · rw [List.getElem?_eq_none (by rw [List.length_take]; omega), List.getElem?_eq_none (by omega)]

/-- The members for the meta blocks are the same. -/
structure SameMeta (w w' : Writer) : Prop where
  header : w'.io.header = w.io.header
  big : w'.io.bbat = w.io.bbat
  blocks : w'.mbat_blocks = w.mbat_blocks
  data : w'.mbat_data = w.mbat_data
  dirty : w'.mbatDirty = w.mbatDirty

theorem SameMeta.refl (w : Writer) : SameMeta w w := ⟨rfl, rfl, rfl, rfl, rfl⟩

theorem SameMeta.trans {a b c : Writer} (h : SameMeta a b) (h' : SameMeta b c) : SameMeta a c :=
  ⟨h'.header.trans h.header, h'.big.trans h.big, h'.blocks.trans h.blocks, h'.data.trans h.data, h'.dirty.trans h.dirty⟩

/-- A flush writes the meta blocks last. -/
theorem flush_last {junk : Nat → Nat → UInt8} {w w' : Writer} (h : w.flush junk = .ok w') :
    ∃ w4, SameMeta w w4 ∧ w4.flushMeta (junk 2) = .ok w' := by
  unfold Writer.flush at h
  obtain ⟨w1, h1, h⟩ := bind_inv h
  obtain ⟨w2, h2, h⟩ := bind_inv h
  obtain ⟨w3, h3, h⟩ := bind_inv h
  obtain ⟨w4, h4, h5⟩ := bind_inv h
  have k1 : SameMeta w w1 := by
    unfold Writer.flushHeader at h1
    split at h1
    · obtain ⟨m, _, h1⟩ := bind_inv h1
      obtain ⟨d, _, h1⟩ := bind_inv h1
      cases h1; exact ⟨rfl, rfl, rfl, rfl, rfl⟩
    · cases h1; exact SameMeta.refl _
  have k2 : SameMeta w1 w2 := by
    unfold Writer.flushBig at h2
    split at h2
    · obtain ⟨m, _, h2⟩ := bind_inv h2
      cases h2; exact ⟨rfl, rfl, rfl, rfl, rfl⟩
    · cases h2; exact SameMeta.refl _
  have k3 : SameMeta w2 w3 := by
    unfold Writer.flushSmall at h3
    split at h3
    · obtain ⟨m, _, h3⟩ := bind_inv h3
      obtain ⟨d, _, h3⟩ := bind_inv h3
      cases h3; exact ⟨rfl, rfl, rfl, rfl, rfl⟩
    · cases h3; exact SameMeta.refl _
  have k4 : SameMeta w3 w4 := by
    unfold Writer.flushDir at h4
    split at h4
    · obtain ⟨m, _, h4⟩ := bind_inv h4
      dsimp only at h4
      obtain ⟨⟨t, f⟩, _, h4⟩ := bind_inv h4
      cases h4; exact ⟨rfl, rfl, rfl, rfl, rfl⟩
    · cases h4; exact SameMeta.refl _
  exact ⟨w4, ((k1.trans k2).trans k3).trans k4, h5⟩

theorem junk_bytes (junk : Nat → UInt8) (n : Nat) : junkMem junk n = ((List.range n).map junk).map some := by
  simp [junkMem, Function.comp_def]

/-- What writing the meta blocks does: the first of them holds the first 63 sectors, and behind them the number of the second. -/
theorem flushMeta_first {junk : Nat → UInt8} {w : Writer} (hs : w.io.bbat.blockSize = 512) (hd : w.mbatDirty = true) {b : Nat} {rest : List Nat}
    (hb : w.mbat_blocks = b :: rest) (hn : b ∉ rest) (hroom : w.mbat_data.length < 63 * (w.mbat_blocks.length + 1)) :
    ∃ w' bs, w.flushMeta junk = .ok w' ∧ SameMeta w { w' with mbatDirty := true } ∧ Sector w'.io.file 512 b bs ∧
      (∀ i v, w.mbat_data[i]? = some v → i < 63 → Num bs (4 * i) 4 (u32 v)) ∧
      (63 ≤ w.mbat_data.length → ∀ x, w.mbat_blocks[1]? = some x → Num bs 252 4 (u32 x)) := by
  have hl : w.mbat_blocks.length = rest.length + 1 := by rw [hb]; rfl
  let bytes := (List.range (512 * w.mbat_blocks.length)).map junk
  have hbl : bytes.length = 512 * w.mbat_blocks.length := by rw [List.length_map, List.length_range]
  obtain ⟨bs', f1, f2, _, f4, f5⟩ := metaFill_ok w.mbat_blocks w.mbat_data bytes 0 0 0 (by decide) (by omega) (by omega)
  obtain ⟨data, d1, d2, d3⟩ := readId_map (bytes := bs') (pos := 0) (n := 512 * w.mbat_blocks.length) (by omega)
  have part : ∀ {i v}, Num bs' i 4 v → i + 4 ≤ 512 → Num (data.take 512) i 4 v := fun {i v} h hi => by
    refine num_congr h (by decide) fun k hk => ?_
    rw [List.getElem?_take, if_pos (by omega), d3 _ (by omega), Nat.zero_add]
  refine ⟨{ w with mbatDirty := false, io := { w.io with file := saveLoop w.io.file 512 w.mbat_blocks 0 data } }, data.take 512, ?_, ?_, ?_,
    fun i v hi hlt => ?_, fun h63 x hx => ?_⟩
  · unfold Writer.flushMeta
    rw [if_pos ⟨hd, by omega⟩]
    dsimp only
    rw [hs, junk_bytes]
    show (metaFill (bytes.map some) 63 w.mbat_blocks 0 0 0 w.mbat_data >>= _) = _
    rw [f1, Res.bind_ok, d1]
    rfl
  · exact ⟨rfl, rfl, rfl, rfl, hd.symm⟩
  · show Sector (saveLoop w.io.file 512 w.mbat_blocks 0 data) 512 b _
    rw [hb]
    exact saveLoop_first hn (by omega) (by decide)
  · have := f4 i v hi (by omega)
    rw [Nat.zero_add] at this
    exact part this (by omega)
  · exact part (f5 (by omega) x hx) (by decide)

/-- With too few meta blocks writing them is undefined. -/
theorem flushMeta_ub {junk : Nat → UInt8} {w : Writer} (hs : w.io.bbat.blockSize = 512) (hd : w.mbatDirty = true) (hb : w.mbat_blocks ≠ [])
    (hroom : 63 * (w.mbat_blocks.length + 1) ≤ w.mbat_data.length) : ∃ u, w.flushMeta junk = .ub u := by
  obtain ⟨u, hu⟩ := metaFill_ub w.mbat_blocks w.mbat_data (junkMem junk (512 * w.mbat_blocks.length)) 0 0 0 (by decide) (Nat.zero_le _) (by omega)
  refine ⟨u, ?_⟩
  unfold Writer.flushMeta
  rw [if_pos ⟨hd, List.length_pos_iff.2 hb⟩]
  dsimp only
  rw [hs]
  show (metaFill _ 63 _ 0 0 0 _ >>= _) = _
  rw [hu]
  rfl

/-! ## Reading them -/

theorem metaWords_grows (m : Mem) (num_bat : Nat) : ∀ (n s : Nat) (blocks out : List Nat), metaWords m num_bat s n blocks = .ok out →
    blocks <+: out ∧ (blocks.length < num_bat → 0 < n → blocks.length < out.length) ∧ (blocks.length ≤ num_bat → out.length ≤ num_bat) := by
  intro n
  induction n with
  | zero =>
    intro s blocks out h
    cases h
    exact ⟨List.prefix_refl _, fun _ h => absurd h (by decide), id⟩
  | succ n ih =>
    intro s blocks out h
    rw [metaWords] at h
    split at h
    · cases h
      exact ⟨List.prefix_refl _, fun h => by omega, id⟩
    · obtain ⟨v, _, h⟩ := bind_inv h
      obtain ⟨g1, g2, g3⟩ := ih _ _ _ h
      have := g1.length_le
      rw [List.length_append, List.length_singleton] at this g3
      exact ⟨(List.prefix_append _ _).trans g1, fun _ _ => by omega, fun h => g3 (by omega)⟩

/-- Once more sectors than that are found, a sector that was found stays. -/
theorem metaLoop_stays {file : Bytes} {num_bat start : Nat} {i x : Nat} : ∀ (n : Nat) (m : Mem) (blocks out : List Nat),
    metaLoop file 512 num_bat start n false m blocks = .ok out → i + 1 < blocks.length → blocks.length ≤ num_bat → blocks[i]? = some x →
    out[i]? = some x := by
  intro n
  induction n with
  | zero => intro m blocks out h _ _ hx; cases h; exact hx
  | succ n ih =>
    intro m blocks out h hi hle hx
    rw [metaLoop] at h
    simp only [Bool.false_eq_true, if_false] at h
    obtain ⟨m1, _, h⟩ := bind_inv h
    obtain ⟨bl, h2, h⟩ := bind_inv h
    obtain ⟨g1, g2, g3⟩ := metaWords_grows _ _ _ _ _ _ h2
    rw [List.length_dropLast] at g2 g3
    have hx' : blocks.dropLast[i]? = some x := by
      rw [List.getElem?_dropLast, if_pos (by omega)]; exact hx
    refine ih _ _ _ h (by have := g2 (by omega) (by decide); omega) (g3 (by omega)) ?_
    exact (List.prefix_iff_getElem?.1 g1) i (by rw [List.length_dropLast]; omega) |>.trans (by
      rw [← hx', List.getElem?_eq_getElem])

end Fileid.Pole
