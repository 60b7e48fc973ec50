import Verif.Lemmas.PoleReady
import Verif.Model.PoleFlush
import Verif.Props.PoleOpen

/-!
# Lemmas about flushing a storage: what is in the file afterwards
-/

namespace Fileid.Pole

open Spec Props

/-! ## Blocks written into the file -/

theorem putAt_length (file : Bytes) (pos : Nat) (bs : Bytes) : (putAt file pos bs).length = max file.length (pos + bs.length) := by
  unfold putAt
  simp only [List.length_append, List.length_take, List.length_replicate, List.length_drop]
  omega

/-- The file is what it was, but for the listed blocks, and no shorter. -/
structure Beside (file file' : Bytes) (blocks : List Nat) : Prop where
  length : file.length ≤ file'.length
  same : ∀ a v, file[a]? = some v → (∀ b ∈ blocks, a < 512 * (b + 1) ∨ 512 * (b + 2) ≤ a) → file'[a]? = some v

theorem Beside.refl (file : Bytes) (blocks : List Nat) : Beside file file blocks := ⟨Nat.le_refl _, fun _ _ h _ => h⟩

theorem Beside.trans {a b c : Bytes} {l : List Nat} (h : Beside a b l) (h' : Beside b c l) : Beside a c l :=
  ⟨Nat.le_trans h.length h'.length, fun i v hv hb => h'.same i v (h.same i v hv hb) hb⟩

theorem Beside.mono {a b : Bytes} {l l' : List Nat} (h : Beside a b l) (hl : ∀ x ∈ l, x ∈ l') : Beside a b l' :=
  ⟨h.length, fun i v hv hb => h.same i v hv fun x hx => hb x (hl x hx)⟩

theorem saveBigBlock_beside {file : Bytes} {block : Nat} {data : Bytes} (h : data.length ≤ 512) :
    Beside file (saveBigBlock file 512 block 0 data) [block] ∧
    ∀ k, k < data.length → (saveBigBlock file 512 block 0 data)[512 * (block + 1) + k]? = data[k]? := by
  rcases saveBigBlock_eq (file := file) (bs := 512) (block := block) (offset := 0) (data := data) (by omega) with h1 | h1
  · rw [h1]
    refine ⟨⟨by rw [putAt_length]; omega, fun a v hv hb => putAt_out hv ?_⟩, fun k hk => putAt_in hk⟩
    have := hb block (by simp)
    omega
  · subst h1
    refine ⟨?_, fun k hk => absurd hk (by simp)⟩
    have : saveBigBlock file 512 block 0 [] = file := rfl
    rw [this]
    exact Beside.refl _ _

theorem readId_map {bytes : Bytes} {pos n : Nat} (h : pos + n ≤ bytes.length) :
    ∃ data, readId (bytes.map some) pos n = .ok data ∧ data.length = n ∧ ∀ k, k < n → data[k]? = bytes[pos + k]? := by
  refine ⟨_, readId_some bytes n pos h, by rw [List.length_take, List.length_drop]; omega, fun k hk => ?_⟩
  rw [List.getElem?_take, if_pos hk, List.getElem?_drop]

/-- Far behind a byte of a block, the bytes of other blocks are not. -/
theorem other_block {b b' k : Nat} (hk : k < 512) (hne : b ≠ b') : 512 * (b + 1) + k < 512 * (b' + 1) ∨ 512 * (b' + 2) ≤ 512 * (b + 1) + k := by
  omega

/-- The blocks that are changed: those whose numbers, from `idx` on, are marked. -/
def dirtyOf (dirty : List Nat) : List Nat → Nat → List Nat
  | [], _ => []
  | b :: rest, idx => if idx ∈ dirty then b :: dirtyOf dirty rest (idx + 1) else dirtyOf dirty rest (idx + 1)

theorem mem_dirtyOf {dirty blocks : List Nat} : ∀ {idx b : Nat}, b ∈ dirtyOf dirty blocks idx → ∃ j, blocks[j]? = some b ∧ idx + j ∈ dirty := by
  induction blocks with
  | nil => intro idx b h; cases h
  | cons c rest ih =>
    intro idx b h
    unfold dirtyOf at h
    have next : b ∈ dirtyOf dirty rest (idx + 1) → ∃ j, (c :: rest)[j]? = some b ∧ idx + j ∈ dirty := fun h => by
      obtain ⟨j, h1, h2⟩ := ih h
      exact ⟨j + 1, by rw [List.getElem?_cons_succ]; exact h1, by rw [show idx + (j + 1) = idx + 1 + j by omega]; exact h2⟩
    split at h
    · rcases List.mem_cons.1 h with h1 | h1
      · exact ⟨0, by rw [h1]; rfl, by assumption⟩
      · exact next h1
    · exact next h

theorem dirtyOf_mem {dirty blocks : List Nat} {idx b : Nat} (h : b ∈ dirtyOf dirty blocks idx) : b ∈ blocks := by
  obtain ⟨j, hj, _⟩ := mem_dirtyOf h
  exact List.mem_of_getElem? hj

theorem dirtyOf_cons {dirty rest : List Nat} {c idx x : Nat} (h : x ∈ dirtyOf dirty rest (idx + 1)) : x ∈ dirtyOf dirty (c :: rest) idx := by
  rw [dirtyOf]
  split
  · exact List.mem_cons_of_mem _ h
  · exact h

theorem dirtyOf_head {dirty rest : List Nat} {c idx : Nat} (h : idx ∈ dirty) : c ∈ dirtyOf dirty (c :: rest) idx := by
  rw [dirtyOf, if_pos h]
  exact List.mem_cons_self

/-- The blocks of a table. -/
theorem flushTableLoop_spec (dirty : List Nat) (bytes : Bytes) (blocks : List Nat) : ∀ (idx : Nat) (file : Bytes),
    512 * (idx + blocks.length) ≤ bytes.length → blocks.Nodup →
    ∃ file', flushTableLoop 512 dirty (bytes.map some) blocks idx file = .ok file' ∧ Beside file file' (dirtyOf dirty blocks idx) ∧
      ∀ j b k, blocks[j]? = some b → idx + j ∈ dirty → k < 512 → file'[512 * (b + 1) + k]? = bytes[512 * (idx + j) + k]? := by
  induction blocks with
  | nil => exact fun idx file _ _ => ⟨file, rfl, Beside.refl _ _, fun j b k h => by cases h⟩
  | cons block rest ih =>
    intro idx file hlen hnd
    rw [List.length_cons] at hlen
    rw [List.nodup_cons] at hnd
    unfold flushTableLoop
    by_cases hd : idx ∈ dirty
    · obtain ⟨data, r1, r2, r3⟩ := readId_map (bytes := bytes) (pos := 512 * idx) (n := 512) (by omega)
      obtain ⟨s1, s2⟩ := saveBigBlock_beside (file := file) (block := block) (data := data) (by omega)
      obtain ⟨file', f1, f2, f3⟩ := ih (idx + 1) (saveBigBlock file 512 block 0 data) (by omega) hnd.2
      refine ⟨file', ?_, ?_, ?_⟩
      · rw [if_pos hd, r1, Res.bind_ok]; exact f1
      · exact (s1.mono fun x hx => List.mem_singleton.1 hx ▸ dirtyOf_head hd).trans (f2.mono fun x hx => dirtyOf_cons hx)
      · intro j b k hj hjd hk
        cases j with
        | zero =>
          simp only [List.getElem?_cons_zero, Option.some.injEq] at hj
          subst hj
          have h1 := s2 k (by omega)
          rw [r3 k hk] at h1
          have hlt : 512 * idx + k < bytes.length := by omega
          rw [List.getElem?_eq_getElem hlt] at h1
          show _ = bytes[512 * idx + k]?
          rw [List.getElem?_eq_getElem hlt]
          exact f2.same _ _ h1 fun x hx => other_block hk fun he => hnd.1 (he ▸ dirtyOf_mem hx)
        | succ j =>
          rw [List.getElem?_cons_succ] at hj
          have := f3 j b k hj (by rw [show idx + 1 + j = idx + (j + 1) by omega]; exact hjd) hk
          rw [this]
          congr 2
          omega
    · obtain ⟨file', f1, f2, f3⟩ := ih (idx + 1) file (by omega) hnd.2
      refine ⟨file', by rw [if_neg hd]; exact f1, f2.mono fun x hx => dirtyOf_cons hx, ?_⟩
      intro j b k hj hjd hk
      cases j with
      | zero => exact absurd hjd hd
      | succ j =>
        rw [List.getElem?_cons_succ] at hj
        have := f3 j b k hj (by rw [show idx + 1 + j = idx + (j + 1) by omega]; exact hjd) hk
        rw [this]
        congr 2
        omega

/-- The blocks of the directory, the last of them perhaps in part. -/
theorem flushTreeLoop_spec (dirty : List Nat) (bytes : Bytes) (h64 : bytes.length < 2 ^ 64) (hin : ∀ d ∈ dirty, 512 * d < bytes.length)
    (blocks : List Nat) : ∀ (idx : Nat) (file : Bytes), blocks.Nodup →
    ∃ file', flushTreeLoop 512 dirty (bytes.map some) blocks idx file = .ok file' ∧ Beside file file' (dirtyOf dirty blocks idx) ∧
      ∀ j b k, blocks[j]? = some b → idx + j ∈ dirty → k < 512 → 512 * (idx + j) + k < bytes.length →
        file'[512 * (b + 1) + k]? = bytes[512 * (idx + j) + k]? := by
  induction blocks with
  | nil => exact fun idx file _ => ⟨file, rfl, Beside.refl _ _, fun j b k h => by cases h⟩
  | cons block rest ih =>
    intro idx file hnd
    rw [List.nodup_cons] at hnd
    unfold flushTreeLoop
    dsimp only
    by_cases hd : idx ∈ dirty
    · have hlt := hin idx hd
      have hs : sub64 (List.map some bytes).length (512 * idx) = bytes.length - 512 * idx := by
        rw [List.length_map]; exact sub64_le (by omega) (by omega)
      rw [hs, if_pos hd]
      generalize hn : (if bytes.length - 512 * idx < 512 then bytes.length - 512 * idx else 512) = n
      have hn2 : n ≤ 512 ∧ 512 * idx + n ≤ bytes.length ∧ (n = 512 ∨ 512 * idx + n = bytes.length) := by
        split at hn <;> omega
      obtain ⟨data, r1, r2, r3⟩ := readId_map (bytes := bytes) (pos := 512 * idx) (n := n) hn2.2.1
      obtain ⟨s1, s2⟩ := saveBigBlock_beside (file := file) (block := block) (data := data) (by omega)
      obtain ⟨file', f1, f2, f3⟩ := ih (idx + 1) (saveBigBlock file 512 block 0 data) hnd.2
      refine ⟨file', ?_, ?_, ?_⟩
      · rw [r1, Res.bind_ok]; exact f1
      · exact (s1.mono fun x hx => List.mem_singleton.1 hx ▸ dirtyOf_head hd).trans (f2.mono fun x hx => dirtyOf_cons hx)
      · intro j b k hj hjd hk hb
        cases j with
        | zero =>
          simp only [List.getElem?_cons_zero, Option.some.injEq] at hj
          subst hj
          have h1 := s2 k (by omega)
          rw [r3 k (by omega)] at h1
          have hlt : 512 * idx + k < bytes.length := by omega
          rw [List.getElem?_eq_getElem hlt] at h1
          show _ = bytes[512 * idx + k]?
          rw [List.getElem?_eq_getElem hlt]
          exact f2.same _ _ h1 fun x hx => other_block hk fun he => hnd.1 (he ▸ dirtyOf_mem hx)
        | succ j =>
          rw [List.getElem?_cons_succ] at hj
          have := f3 j b k hj (by rw [show idx + 1 + j = idx + (j + 1) by omega]; exact hjd) hk (by omega)
          rw [this]
          congr 2
          omega
    · obtain ⟨file', f1, f2, f3⟩ := ih (idx + 1) file hnd.2
      refine ⟨file', by rw [if_neg hd]; exact f1, f2.mono fun x hx => dirtyOf_cons hx, ?_⟩
      intro j b k hj hjd hk hb
      cases j with
      | zero => exact absurd hjd hd
      | succ j =>
        rw [List.getElem?_cons_succ] at hj
        have := f3 j b k hj (by rw [show idx + 1 + j = idx + (j + 1) by omega]; exact hjd) hk (by omega)
        rw [this]
        congr 2
        omega

/-! ## Tables -/

/-- A table in a buffer with room for it: the words of the table are the first ones. -/
theorem save_spec (t : AllocTable) (junk : Nat → UInt8) (n : Nat) (hv : ∀ v ∈ t.data, v < 2 ^ 32) (hl : 4 * t.data.length ≤ n) :
    ∃ bytes : Bytes, t.save (junkMem junk n) = .ok (bytes.map some) ∧ bytes.length = n ∧
      ∀ x v, t.data[x]? = some v → Num bytes (4 * x) 4 v := by
  let j : Bytes := (List.range n).map junk
  have hj : junkMem junk n = j.map some := by simp [junkMem, j, Function.comp_def]
  have hjl : j.length = n := by simp [j]
  have h := writeWords_eq [] ((j.take (4 * t.data.length)).map some) ((j.drop (4 * t.data.length)).map some) t.data
    (by rw [List.length_map, List.length_take]; omega) hv
  rw [List.nil_append, ← List.map_append, List.take_append_drop, List.nil_append, ← List.map_append] at h
  have hwl : ∀ ws : List Nat, (wordBytes ws).length = 4 * ws.length := fun ws => by
    induction ws with
    | nil => rfl
    | cons w ws ih => simp only [wordBytes, List.flatMap_cons, List.length_append, List.length_cons, leBytes_length] at ih ⊢; omega
  refine ⟨_, by rw [hj]; exact h, by rw [List.length_append, hwl, List.length_drop]; omega, fun x v hx => ?_⟩
  obtain ⟨hx1, hx2⟩ := List.getElem?_eq_some_iff.1 hx
  have hw : v < 2 ^ 32 := hv v (List.mem_of_getElem? hx)
  have hat : ∀ (ws : List Nat) (x : Nat) (hx : x < ws.length) (r : Bytes), ((wordBytes ws ++ r).drop (4 * x)).take 4 = leBytes 4 ws[x] := by
    intro ws
    induction ws with
    | nil => intro x hx; simp at hx
    | cons w ws ih =>
      intro x hx r
      have he : wordBytes (w :: ws) ++ r = leBytes 4 w ++ (wordBytes ws ++ r) := by simp [wordBytes]
      rw [he]
      cases x with
      | zero => rw [Nat.mul_zero, List.drop_zero, List.take_append_of_le_length (by rw [leBytes_length]; omega), List.take_of_length_le (by rw [leBytes_length]; omega)]; rfl
      | succ x =>
        rw [show 4 * (x + 1) = (leBytes 4 w).length + 4 * x by rw [leBytes_length]; omega, ← List.drop_drop, List.drop_left]
        exact ih x (by simpa using hx) r
  have h2 := num_of_le (c := wordBytes t.data ++ j.drop (4 * t.data.length)) (off := 4 * x) (n := 4) (by
    rw [List.length_append, hwl, List.length_drop]; omega)
  rw [hat t.data x hx1, hx2, leVal_leBytes, Nat.mod_eq_of_lt (by omega)] at h2
  exact h2

theorem flushTable_spec (t : AllocTable) (junk : Nat → UInt8) (dirty blocks : List Nat) (file : Bytes)
    (hv : ∀ v ∈ t.data, v < 2 ^ 32) (hl : t.data.length ≤ 128 * blocks.length) (hnd : blocks.Nodup) :
    ∃ file' bytes, t.flush junk dirty blocks file 512 = .ok file' ∧ Beside file file' (dirtyOf dirty blocks 0) ∧ bytes.length = 512 * blocks.length ∧
      (∀ x v, t.data[x]? = some v → Num bytes (4 * x) 4 v) ∧
      ∀ j b k, blocks[j]? = some b → j ∈ dirty → k < 512 → file'[512 * (b + 1) + k]? = bytes[512 * j + k]? := by
  obtain ⟨bytes, s1, s2, s3⟩ := save_spec t junk (512 * blocks.length) hv (by omega)
  obtain ⟨file', f1, f2, f3⟩ := flushTableLoop_spec dirty bytes blocks 0 file (by omega) hnd
  refine ⟨file', bytes, ?_, f2, s2, s3, fun j b k h1 h2 h3 => ?_⟩
  · unfold AllocTable.flush
    rw [s1, Res.bind_ok]; exact f1
  · have := f3 j b k h1 (by rwa [Nat.zero_add]) h3
    rwa [Nat.zero_add] at this

/-! ## Reading blocks again -/

theorem num_congr {c c' : Bytes} {off off' n v : Nat} (h : Num c off n v) (hn : 0 < n) (hs : ∀ k, k < n → c'[off' + k]? = c[off + k]?) :
    Num c' off' n v := by
  have hl := h.length_le
  have hd : (c'.drop off').take n = (c.drop off).take n := by
    apply List.ext_getElem?
    intro k
    rw [List.getElem?_take, List.getElem?_take]
    split
    · rename_i hk
      rw [List.getElem?_drop, List.getElem?_drop]
      exact hs k hk
    · rfl
  have hl' : off' + n ≤ c'.length := by
    have h1 := hs (n - 1) (by omega)
    rw [List.getElem?_eq_getElem (by omega : off + (n - 1) < c.length)] at h1
    have := (List.getElem?_eq_some_iff.1 h1).1
    omega
  have := num_of_le (c := c') (off := off') (n := n) hl'
  rw [hd, ← h.eq] at this
  exact this

theorem content_of {file : Bytes} (l : List Nat) : (∀ b ∈ l, 512 * (b + 2) ≤ file.length) →
    ∃ c, Content file 512 l c ∧ c.length = 512 * l.length ∧
      ∀ j b k, l[j]? = some b → k < 512 → c[512 * j + k]? = file[512 * (b + 1) + k]? := by
  induction l with
  | nil => exact fun _ => ⟨[], .nil, rfl, fun j b k h => by cases h⟩
  | cons n rest ih =>
    intro h
    obtain ⟨c, c1, c2, c3⟩ := ih fun b hb => h b (by simp [hb])
    have hn := h n (by simp)
    have hl : ((file.drop (512 * (n + 1))).take 512).length = 512 := by rw [List.length_take, List.length_drop]; omega
    refine ⟨(file.drop (512 * (n + 1))).take 512 ++ c, .cons ⟨at_of_le (by omega), hl⟩ c1, by
      rw [List.length_append, hl, c2, List.length_cons]; omega, fun j b k hj hk => ?_⟩
    cases j with
    | zero =>
      simp only [List.getElem?_cons_zero, Option.some.injEq] at hj
      subst hj
      rw [Nat.mul_zero, Nat.zero_add, List.getElem?_append_left (by omega), List.getElem?_take, if_pos hk, List.getElem?_drop]
    | succ j =>
      rw [List.getElem?_cons_succ] at hj
      rw [List.getElem?_append_right (by omega), hl, show 512 * (j + 1) + k - 512 = 512 * j + k by omega]
      exact c3 j b k hj hk

theorem words_of {bytes : Bytes} {n : Nat} (h : bytes.length = 4 * n) : ∃ ws, Words bytes ws ∧ ws.length = n ∧
    ∀ x v, x < n → Num bytes (4 * x) 4 v → ws[x]? = some v := by
  refine ⟨(List.range n).map fun i => leVal ((bytes.drop (4 * i)).take 4), ⟨by simp [h], fun i w hi => ?_⟩, by simp, fun x v hx hv => ?_⟩
  · rw [List.getElem?_map] at hi
    cases hr : (List.range n)[i]? with
    | none => rw [hr] at hi; cases hi
    | some y =>
      rw [hr] at hi
      obtain ⟨h1, h2⟩ := List.getElem?_eq_some_iff.1 hr
      rw [List.getElem_range] at h2
      subst h2
      rw [List.length_range] at h1
      cases hi
      exact num_of_le (by omega)
  · rw [List.getElem?_map, List.getElem?_range hx, hv.eq]
    rfl

/-! ## Entries -/

/-- The buffer holds bytes only. -/
def Full (m : Mem) : Prop := ∃ bytes : Bytes, m = bytes.map some

theorem full_mwr {m m' : Mem} {i : Nat} {bs : Bytes} (h : mwr m i (bs.map some) = .ok m') (hm : Full m) : Full m' := by
  obtain ⟨b, rfl⟩ := hm
  unfold mwr at h
  split at h
  · cases h
    exact ⟨b.take i ++ bs ++ b.drop (i + bs.length), by simp⟩
  · cases h

theorem full_u16 {m m' : Mem} {i v : Nat} (h : writeU16 m i v = .ok m') (hm : Full m) : Full m' := full_mwr (by rw [← writeU16_eq]; exact h) hm

theorem full_u32 {m m' : Mem} {i v : Nat} (h : writeU32 m i v = .ok m') (hm : Full m) : Full m' := full_mwr (by rw [← writeU32_eq]; exact h) hm

/-- Entry `e` is in the buffer at `p`. -/
structure Stored (m : Mem) (p : Nat) (e : DirEntry) (type : UInt8) : Prop where
  type : mrd m (p + 0x42) = .ok type
  start : readU32 m (p + 0x74) = .ok e.start
  size : readU32 m (p + 0x78) = .ok e.size
  prev : readU32 m (p + 0x44) = .ok e.prev
  next : readU32 m (p + 0x48) = .ok e.next
  child : readU32 m (p + 0x4c) = .ok e.child
  len : readU16 m (p + 0x40) = .ok (e.name.length * 2 + 2)
  low : ∀ j u, e.name[j]? = some u → mrd m (p + 2 * j) = .ok (UInt8.ofNat u)
  high : ∀ j, j < 32 → mrd m (p + 2 * j + 1) = .ok 0
  rest : ∀ j, e.name.length ≤ j → j < 32 → mrd m (p + 2 * j) = .ok 0
  short : e.name.length ≤ 32

/-- Bytes that can be read in one buffer can be read in the other. -/
theorem readU32_kept {m m' : Mem} {p v : Nat} (hs : ∀ k u, k < 4 → mrd m (p + k) = .ok u → mrd m' (p + k) = .ok u) (h : readU32 m p = .ok v) :
    readU32 m' p = .ok v := by
  unfold readU32 at h ⊢
  obtain ⟨a, h0, h⟩ := bind_inv h
  obtain ⟨b, h1, h⟩ := bind_inv h
  obtain ⟨c, h2, h⟩ := bind_inv h
  obtain ⟨d, h3, h⟩ := bind_inv h
  rw [show mrd m' p = .ok a from hs 0 _ (by omega) h0, Res.bind_ok, hs 1 _ (by omega) h1, Res.bind_ok, hs 2 _ (by omega) h2, Res.bind_ok,
    hs 3 _ (by omega) h3, Res.bind_ok]
  exact h

theorem readU16_kept {m m' : Mem} {p v : Nat} (hs : ∀ k u, k < 2 → mrd m (p + k) = .ok u → mrd m' (p + k) = .ok u) (h : readU16 m p = .ok v) :
    readU16 m' p = .ok v := by
  unfold readU16 at h ⊢
  obtain ⟨a, h0, h⟩ := bind_inv h
  obtain ⟨b, h1, h⟩ := bind_inv h
  rw [show mrd m' p = .ok a from hs 0 _ (by omega) h0, Res.bind_ok, hs 1 _ (by omega) h1, Res.bind_ok]
  exact h

theorem stored_kept {m m' : Mem} {p : Nat} {e : DirEntry} {ty : UInt8} (h : Stored m p e ty)
    (hs : ∀ k u, k < 128 → mrd m (p + k) = .ok u → mrd m' (p + k) = .ok u) : Stored m' p e ty := by
  have hs' : ∀ i k u, i + k < 128 → mrd m (p + i + k) = .ok u → mrd m' (p + i + k) = .ok u := fun i k u hk h => by
    rw [Nat.add_assoc] at h ⊢
    exact hs _ u hk h
  have hsh := h.short
  refine ⟨hs _ _ (by decide) h.type, readU32_kept (fun k u hk => hs' _ k u (by omega)) h.start, readU32_kept (fun k u hk => hs' _ k u (by omega)) h.size,
    readU32_kept (fun k u hk => hs' _ k u (by omega)) h.prev, readU32_kept (fun k u hk => hs' _ k u (by omega)) h.next,
    readU32_kept (fun k u hk => hs' _ k u (by omega)) h.child, readU16_kept (fun k u hk => hs' _ k u (by omega)) h.len,
    fun j u hj => hs _ _ ?_ (h.low j u hj), fun j hj => hs' _ 1 _ (by omega) (h.high j hj), fun j h1 h2 => hs _ _ (by omega) (h.rest j h1 h2), h.short⟩
  have := (List.getElem?_eq_some_iff.1 hj).1
  omega

/-- The same for bytes of files. -/
theorem stored_file {f f' : Bytes} {p : Nat} {e : DirEntry} {ty : UInt8} (h : Stored (f.map some) p e ty)
    (hs : ∀ k u, k < 128 → f[p + k]? = some u → f'[p + k]? = some u) : Stored (f'.map some) p e ty := by
  refine stored_kept h fun k u hk hm => ?_
  unfold mrd at hm ⊢
  rw [List.getElem?_map] at hm ⊢
  cases hf : f[p + k]? with
  | none => rw [hf] at hm; cases hm
  | some x =>
    rw [hf] at hm
    rw [hs k x hk hf]
    exact hm

theorem num_file {f f' : Bytes} {p n v : Nat} (h : Num f p n v) (hn : 0 < n) (hs : ∀ k u, k < n → f[p + k]? = some u → f'[p + k]? = some u) :
    Num f' p n v := by
  have hl := h.length_le
  refine num_congr h hn fun k hk => ?_
  have he := List.getElem?_eq_getElem (l := f) (i := p + k) (by omega)
  rw [he]
  exact hs k _ hk he

theorem stored_congr {m m' : Mem} {p p' : Nat} {e : DirEntry} {ty : UInt8} (h : Stored m p e ty)
    (hs : ∀ k, k < 128 → mrd m' (p' + k) = mrd m (p + k)) : Stored m' p' e ty := by
  have r32 : ∀ k, k + 4 ≤ 128 → readU32 m' (p' + k) = readU32 m (p + k) := fun k hk => by
    unfold readU32
    simp only [Nat.add_assoc]
    rw [hs k (by omega), hs (k + 1) (by omega), hs (k + 2) (by omega), hs (k + 3) (by omega)]
  have r16 : ∀ k, k + 2 ≤ 128 → readU16 m' (p' + k) = readU16 m (p + k) := fun k hk => by
    unfold readU16
    simp only [Nat.add_assoc]
    rw [hs k (by omega), hs (k + 1) (by omega)]
  have hsh := h.short
  constructor
  · rw [hs _ (by omega)]; exact h.type
  · rw [r32 _ (by omega)]; exact h.start
  · rw [r32 _ (by omega)]; exact h.size
  · rw [r32 _ (by omega)]; exact h.prev
  · rw [r32 _ (by omega)]; exact h.next
  · rw [r32 _ (by omega)]; exact h.child
  · rw [r16 _ (by omega)]; exact h.len
  · intro j u hj
    have := (List.getElem?_eq_some_iff.1 hj).1
    rw [hs _ (by omega)]; exact h.low j u hj
  · intro j hj
    rw [Nat.add_assoc, hs _ (by omega), ← Nat.add_assoc]; exact h.high j hj
  · intro j h1 h2
    rw [hs _ (by omega)]; exact h.rest j h1 h2
  · exact hsh

theorem saveName_spec (name : WStr) : ∀ (p : Nat) (m : Mem), p + 2 * name.length ≤ m.length →
    ∃ m', saveName m p name = .ok m' ∧ m'.length = m.length ∧ (∀ a, (∀ j, j < name.length → a ≠ p + 2 * j) → mrd m' a = mrd m a) ∧
      (∀ j u, name[j]? = some u → mrd m' (p + 2 * j) = .ok (UInt8.ofNat u)) ∧ (Full m → Full m') := by
  induction name with
  | nil => exact fun p m _ => ⟨m, rfl, rfl, fun _ _ => rfl, fun j u h => (by cases h), id⟩
  | cons c cs ih =>
    intro p m hl
    rw [List.length_cons] at hl
    obtain ⟨m1, a1, a2, a3, a4⟩ := mwr_step m p ([UInt8.ofNat c].map some) (by simp; omega)
    obtain ⟨m2, b1, b2, b3, b4, b5⟩ := ih (p + 2) m1 (by omega)
    have a4 := a4 0 (by simp)
    refine ⟨m2, ?_, by omega, ?_, ?_, fun hm => b5 (full_mwr a1 hm)⟩
    · rw [saveName]
      rw [show [some (UInt8.ofNat c)] = [UInt8.ofNat c].map some from rfl, a1, Res.bind_ok]
      exact b1
    · intro a ha
      have h0 := ha 0 (by simp)
      rw [b3 a fun j hj => (by have := ha (j + 1) (by simp; omega); omega), a3 a (by simp; omega)]
    · intro j u hj
      cases j with
      | zero =>
        simp only [List.getElem?_cons_zero, Option.some.injEq] at hj
        subst hj
        rw [b3 _ fun j hj => by omega]
        exact mrd_of_getElem? a4
      | succ j =>
        rw [List.getElem?_cons_succ] at hj
        rw [show p + 2 * (j + 1) = p + 2 + 2 * j by omega]
        exact b4 j u hj

/-- The type of an entry in the file. -/
def typeOf (e : DirEntry) : UInt8 := if e.valid then (if e.dir then 1 else 2) else 0

theorem saveEntry_spec (m : Mem) (p : Nat) (e : DirEntry) (hl : p + 128 ≤ m.length) (hz : ∀ k, k < 64 → mrd m (p + k) = .ok 0)
    (hn : e.name.length ≤ 32) (h1 : e.start < 2 ^ 32) (h2 : e.size < 2 ^ 32) (h3 : e.prev < 2 ^ 32) (h4 : e.next < 2 ^ 32)
    (h5 : e.child < 2 ^ 32) : ∃ m', saveEntry m p e = .ok m' ∧ m'.length = m.length ∧
      (∀ a, a < p ∨ p + 128 ≤ a → mrd m' a = mrd m a) ∧ Stored m' p e (typeOf e) ∧ (Full m → Full m') := by
  have u : ∀ v, v < 2 ^ 32 → u32 v = v := fun v hv => Nat.mod_eq_of_lt hv
  unfold saveEntry
  dsimp only
  rw [List.take_of_length_le hn, u _ h1, u _ h2, u _ h3, u _ h4, u _ h5]
  obtain ⟨m1, e1, l1, d1, r1, f1⟩ := saveName_spec e.name p m (by omega)
  obtain ⟨m2, e2, l2, d2, r2⟩ := writeU16_step m1 (p + 0x40) (e.name.length * 2 + 2) (by omega) (by omega)
  obtain ⟨m3, e3, l3, d3, r3⟩ := writeU32_step m2 (p + 0x74) e.start h1 (by omega)
  obtain ⟨m4, e4, l4, d4, r4⟩ := writeU32_step m3 (p + 0x78) e.size h2 (by omega)
  obtain ⟨m5, e5, l5, d5, r5⟩ := writeU32_step m4 (p + 0x44) e.prev h3 (by omega)
  obtain ⟨m6, e6, l6, d6, r6⟩ := writeU32_step m5 (p + 0x48) e.next h4 (by omega)
  obtain ⟨m7, e7, l7, d7, r7⟩ := writeU32_step m6 (p + 0x4c) e.child h5 (by omega)
  obtain ⟨m8, e8, l8, d8, r8⟩ := mwr_step m7 (p + 0x42) ([typeOf e].map some) (by simp; omega)
  obtain ⟨m9, e9, l9, d9, r9⟩ := mwr_step m8 (p + 0x43) ([(1 : UInt8)].map some) (by simp; omega)
  simp only [List.map_cons, List.map_nil, List.length_cons, List.length_nil, Nat.zero_add] at d8 d9
  refine ⟨m9, ?_, by omega, ?_, ?_, ?_⟩
  · rw [e1, Res.bind_ok, e2, Res.bind_ok, e3, Res.bind_ok, e4, Res.bind_ok, e5, Res.bind_ok, e6, Res.bind_ok, e7, Res.bind_ok]
    have : mwr m7 (p + 0x42) [some (if e.valid then (if e.dir then 1 else 2) else 0)] = .ok m8 := e8
    rw [this, Res.bind_ok]
    exact e9
  · intro a ha
    rw [d9 a (by omega), d8 a (by omega), d7 a (by omega), d6 a (by omega), d5 a (by omega), d4 a (by omega), d3 a (by omega),
      d2 a (by omega), d1 a fun j hj => by omega]
  · have low : ∀ a, a < p + 0x40 → mrd m9 a = mrd m1 a := fun a ha => by
      rw [d9 a (by omega), d8 a (by omega), d7 a (by omega), d6 a (by omega), d5 a (by omega), d4 a (by omega), d3 a (by omega),
        d2 a (by omega)]
    constructor
    · rw [d9 _ (by omega)]; exact mrd_of_getElem? (r8 0 (by simp))
    · rw [← r3]
      exact readU32_congr fun k hk => by
        rw [d9 _ (by omega), d8 _ (by omega), d7 _ (by omega), d6 _ (by omega), d5 _ (by omega), d4 _ (by omega)]
    · rw [← r4]
      exact readU32_congr fun k hk => by
        rw [d9 _ (by omega), d8 _ (by omega), d7 _ (by omega), d6 _ (by omega), d5 _ (by omega)]
    · rw [← r5]
      exact readU32_congr fun k hk => by rw [d9 _ (by omega), d8 _ (by omega), d7 _ (by omega), d6 _ (by omega)]
    · rw [← r6]
      exact readU32_congr fun k hk => by rw [d9 _ (by omega), d8 _ (by omega), d7 _ (by omega)]
    · rw [← r7]
      exact readU32_congr fun k hk => by rw [d9 _ (by omega), d8 _ (by omega)]
    · rw [← r2]
      exact readU16_congr fun k hk => by
        rw [d9 _ (by omega), d8 _ (by omega), d7 _ (by omega), d6 _ (by omega), d5 _ (by omega), d4 _ (by omega), d3 _ (by omega)]
    · intro j x hj
      have := (List.getElem?_eq_some_iff.1 hj).1
      rw [low _ (by omega)]; exact r1 j x hj
    · intro j hj
      rw [low _ (by omega), d1 _ fun k hk => by omega, Nat.add_assoc]
      exact hz _ (by omega)
    · intro j hj hj2
      rw [low _ (by omega), d1 _ fun k hk => by omega]
      exact hz _ (by omega)
    · exact hn
  · intro hm
    exact full_mwr e9 (full_mwr e8 (full_u32 e7 (full_u32 e6 (full_u32 e5 (full_u32 e4 (full_u32 e3 (full_u16 e2 (f1 hm))))))))

theorem saveEntries_spec (es : DirTree) : ∀ (p : Nat) (m : Mem), p + 128 * es.length ≤ m.length →
    (∀ a, p ≤ a → a < p + 128 * es.length → mrd m a = .ok 0) →
    (∀ e ∈ es, e.name.length ≤ 32 ∧ e.start < 2 ^ 32 ∧ e.size < 2 ^ 32 ∧ e.prev < 2 ^ 32 ∧ e.next < 2 ^ 32 ∧ e.child < 2 ^ 32) →
    ∃ m', saveEntries m p es = .ok m' ∧ m'.length = m.length ∧ (∀ a, a < p → mrd m' a = mrd m a) ∧
      (∀ i e, es[i]? = some e → Stored m' (p + 128 * i) e (typeOf e)) ∧ (Full m → Full m') := by
  induction es with
  | nil => exact fun p m _ _ _ => ⟨m, rfl, rfl, fun _ _ => rfl, fun i e h => (by cases h), id⟩
  | cons e es ih =>
    intro p m hl hz hv
    rw [List.length_cons] at hl hz
    obtain ⟨v0, v1, v2, v3, v4, v5⟩ := hv e (by simp)
    obtain ⟨m1, a1, a2, a3, a4, a5⟩ := saveEntry_spec m p e (by omega) (fun k hk => hz _ (by omega) (by omega)) v0 v1 v2 v3 v4 v5
    obtain ⟨m2, b1, b2, b3, b4, b5⟩ := ih (p + 128) m1 (by omega) (fun a h1 h2 => by rw [a3 a (by omega)]; exact hz a (by omega) (by omega))
      fun e he => hv e (by simp [he])
    refine ⟨m2, ?_, by omega, fun a ha => by rw [b3 a (by omega), a3 a (by omega)], ?_, fun hm => b5 (a5 hm)⟩
    · rw [saveEntries, a1, Res.bind_ok]; exact b1
    · intro i x hi
      cases i with
      | zero =>
        simp only [List.getElem?_cons_zero, Option.some.injEq] at hi
        subst hi
        exact stored_congr a4 fun k hk => b3 _ (by omega)
      | succ i =>
        rw [List.getElem?_cons_succ] at hi
        rw [show p + 128 * (i + 1) = p + 128 + 128 * i by omega]
        exact b4 i x hi

/-- The root as it is in the file. -/
def rootEntry (child start size : Nat) : DirEntry :=
  { valid := true, name := b!"Root Entry".map UInt8.toNat, dir := true, start, size, prev := 0xffffffff, next := 0xffffffff, child }

/-- An entry whose numbers fit into the file. -/
structure Small (e : DirEntry) : Prop where
  name : e.name.length ≤ 32
  start : e.start < 2 ^ 32
  size : e.size < 2 ^ 32
  prev : e.prev < 2 ^ 32
  next : e.next < 2 ^ 32
  child : e.child < 2 ^ 32

theorem small_tidied {e : DirEntry} (h : Small e) : Small e.tidied := by
  unfold DirEntry.tidied
  split
  · exact ⟨h.name, (by decide : (0xffffffff : Nat) < 2 ^ 32), (by decide : (0 : Nat) < 2 ^ 32), h.prev, h.next, h.child⟩
  · exact h

theorem tidied_type (e : DirEntry) : typeOf e.tidied = typeOf e := by
  unfold DirEntry.tidied typeOf
  split <;> simp_all

/-- The directory in its buffer. -/
theorem saveTree_spec (root : DirEntry) (es : DirTree) (hr : root.child < 2 ^ 32) (hv : ∀ e ∈ es, Small e) (start size : Nat)
    (h1 : start < 2 ^ 32) (h2 : size < 2 ^ 32) :
    ∃ (m : Mem) (m2 : Mem) (bytes : Bytes), saveTree (root :: es) = .ok (root :: es.map DirEntry.tidied, m) ∧
      writeU32 m 0x74 (u32 start) = .ok m2 ∧ writeU32 m2 0x78 (u32 size) = .ok (bytes.map some) ∧
      bytes.length = 128 * (es.length + 1) ∧ Stored (bytes.map some) 0 (rootEntry root.child start size) 5 ∧
      ∀ i e, es[i]? = some e → Stored (bytes.map some) (128 + 128 * i) e.tidied (typeOf e) := by
  have u : ∀ v, v < 2 ^ 32 → u32 v = v := fun v hv => Nat.mod_eq_of_lt hv
  rw [u _ h1, u _ h2]
  generalize hnm : (b!"Root Entry".map UInt8.toNat) = nm
  have hnl : nm.length = 10 := by rw [← hnm]; rfl
  obtain ⟨m0, e0, l0, _, r0⟩ := mwr_step (newMem ((es.length + 1) * 128)) 0 (List.replicate ((es.length + 1) * 128) (some 0))
    (by simp [newMem])
  have hz : ∀ a, a < (es.length + 1) * 128 → mrd m0 a = .ok 0 := fun a ha => by
    have := r0 a (by simpa using ha)
    rw [Nat.zero_add, List.getElem?_replicate, if_pos ha] at this
    exact mrd_of_getElem? this
  have hF0 : Full m0 := by
    have : (List.replicate ((es.length + 1) * 128) (some (0 : UInt8))) = (List.replicate ((es.length + 1) * 128) (0 : UInt8)).map some := by simp
    rw [mwr_full (by simp [newMem])] at e0
    cases e0
    exact ⟨_, this⟩
  have l0 : m0.length = (es.length + 1) * 128 := by rw [l0]; simp [newMem]
  obtain ⟨m1, e1, l1, d1, r1, f1⟩ := saveName_spec nm 0 m0 (by omega)
  obtain ⟨m2, e2, l2, d2, r2⟩ := writeU16_step m1 0x40 22 (by omega) (by omega)
  obtain ⟨m3, e3, l3, d3, _⟩ := writeU32_step m2 0x74 0xffffffff (by decide) (by omega)
  obtain ⟨m4, e4, l4, d4, _⟩ := writeU32_step m3 0x78 0 (by decide) (by omega)
  obtain ⟨m5, e5, l5, d5, r5⟩ := writeU32_step m4 0x44 0xffffffff (by decide) (by omega)
  obtain ⟨m6, e6, l6, d6, r6⟩ := writeU32_step m5 0x48 0xffffffff (by decide) (by omega)
  obtain ⟨m7, e7, l7, d7, r7⟩ := writeU32_step m6 0x4c root.child hr (by omega)
  obtain ⟨m8, e8, l8, d8, r8⟩ := mwr_step m7 0x42 ([(5 : UInt8)].map some) (by simp; omega)
  simp only [List.map_cons, List.map_nil, List.length_cons, List.length_nil, Nat.zero_add] at d8
  have hF8 : Full m8 := full_mwr e8 (full_u32 e7 (full_u32 e6 (full_u32 e5 (full_u32 e4 (full_u32 e3 (full_u16 e2 (f1 hF0)))))))
  have up : ∀ a, 128 ≤ a → mrd m8 a = mrd m0 a := fun a ha => by
    rw [d8 a (by omega), d7 a (by omega), d6 a (by omega), d5 a (by omega), d4 a (by omega), d3 a (by omega), d2 a (by omega),
      d1 a fun j hj => by omega]
  obtain ⟨m9, e9, l9, d9, r9, f9⟩ := saveEntries_spec (es.map DirEntry.tidied) 128 m8 (by rw [List.length_map]; omega)
    (fun a h1 h2 => by rw [List.length_map] at h2; rw [up a h1]; exact hz a (by omega)) fun e he => by
      obtain ⟨x, hx, rfl⟩ := List.mem_map.1 he
      have := small_tidied (hv x hx)
      exact ⟨this.name, this.start, this.size, this.prev, this.next, this.child⟩
  obtain ⟨m10, e10, l10, d10, r10⟩ := writeU32_step m9 0x74 start h1 (by omega)
  obtain ⟨m11, e11, l11, d11, r11⟩ := writeU32_step m10 0x78 size h2 (by omega)
  obtain ⟨bytes, hb⟩ : Full m11 := full_u32 e11 (full_u32 e10 (f9 hF8))
  refine ⟨m9, m10, bytes, ?_, e10, by rw [e11, hb], ?_, ?_, ?_⟩
  · unfold saveTree
    dsimp only
    rw [show (root :: es).length * 128 = (es.length + 1) * 128 from rfl, e0, Res.bind_ok]
    have hroot : saveRoot m0 root = .ok m8 := by
      unfold saveRoot
      rw [hnm, u _ hr, e1, Res.bind_ok, e2, Res.bind_ok, e3, Res.bind_ok, e4, Res.bind_ok, e5, Res.bind_ok, e6, Res.bind_ok, e7, Res.bind_ok]
      exact e8
    rw [hroot, Res.bind_ok, e9, Res.bind_ok]
  · have := congrArg List.length hb
    rw [List.length_map] at this
    omega
  · rw [← hb]
    have low : ∀ a, a < 0x74 → mrd m11 a = mrd m8 a := fun a ha => by rw [d11 a (by omega), d10 a (by omega), d9 a (by omega)]
    have low2 : ∀ a, a < 0x40 → mrd m11 a = mrd m1 a := fun a ha => by
      rw [low a (by omega), d8 a (by omega), d7 a (by omega), d6 a (by omega), d5 a (by omega), d4 a (by omega), d3 a (by omega), d2 a (by omega)]
    have hname : (rootEntry root.child start size).name = nm := hnm
    constructor
    · rw [low _ (by omega)]; exact mrd_of_getElem? (r8 0 (by simp))
    · rw [Nat.zero_add]
      exact (readU32_congr fun k hk => d11 _ (by omega)).trans r10
    · rw [Nat.zero_add]; exact r11
    · rw [Nat.zero_add]
      exact (readU32_congr fun k hk => by rw [low _ (by omega), d8 _ (by omega), d7 _ (by omega), d6 _ (by omega)]).trans r5
    · rw [Nat.zero_add]
      exact (readU32_congr fun k hk => by rw [low _ (by omega), d8 _ (by omega), d7 _ (by omega)]).trans r6
    · rw [Nat.zero_add]
      exact (readU32_congr fun k hk => by rw [low _ (by omega), d8 _ (by omega)]).trans r7
    · rw [Nat.zero_add, hname, hnl]
      exact (readU16_congr fun k hk => by
        rw [low _ (by omega), d8 _ (by omega), d7 _ (by omega), d6 _ (by omega), d5 _ (by omega), d4 _ (by omega), d3 _ (by omega)]).trans r2
    · intro j x hj
      rw [hname] at hj
      have := (List.getElem?_eq_some_iff.1 hj).1
      rw [low2 _ (by omega)]; exact r1 j x hj
    · intro j hj
      rw [low2 _ (by omega), d1 _ fun k hk => by omega]
      exact hz _ (by omega)
    · intro j hj hj2
      rw [hname] at hj
      rw [low2 _ (by omega), d1 _ fun k hk => by omega]
      exact hz _ (by omega)
    · rw [hname]; omega
  · intro i e hi
    rw [← hb]
    have h3 := r9 i e.tidied (by rw [List.getElem?_map, hi]; rfl)
    rw [tidied_type] at h3
    exact stored_congr h3 fun k hk => by rw [d11 _ (by omega), d10 _ (by omega)]

theorem flushTree_spec (root : DirEntry) (es : DirTree) (hr : root.child < 2 ^ 32) (hv : ∀ e ∈ es, Small e) (start size : Nat)
    (h1 : start < 2 ^ 32) (h2 : size < 2 ^ 32) (dirty blocks : List Nat) (file : Bytes) (h64 : es.length < 2 ^ 32)
    (hin : ∀ d ∈ dirty, 4 * d < es.length + 1) (hnd : blocks.Nodup) :
    ∃ (file' bytes : Bytes), flushTree (root :: es) dirty blocks file 512 start size = .ok (root :: es.map DirEntry.tidied, file') ∧
      Beside file file' (dirtyOf dirty blocks 0) ∧ bytes.length = 128 * (es.length + 1) ∧ Stored (bytes.map some) 0 (rootEntry root.child start size) 5 ∧
      (∀ i e, es[i]? = some e → Stored (bytes.map some) (128 + 128 * i) e.tidied (typeOf e)) ∧
      ∀ j b k, blocks[j]? = some b → j ∈ dirty → k < 512 → 512 * j + k < bytes.length →
        file'[512 * (b + 1) + k]? = bytes[512 * j + k]? := by
  obtain ⟨m, m2, bytes, a1, a2, a3, a4, a5, a6⟩ := saveTree_spec root es hr hv start size h1 h2
  obtain ⟨file', f1, f2, f3⟩ := flushTreeLoop_spec dirty bytes (by rw [a4]; omega) (fun d hd => by have := hin d hd; rw [a4]; omega) blocks 0 file hnd
  refine ⟨file', bytes, ?_, f2, a4, a5, a6, fun j b k x1 x2 x3 x4 => ?_⟩
  · unfold flushTree
    rw [a1, Res.bind_ok]
    dsimp only
    rw [a2, Res.bind_ok, a3, Res.bind_ok, f1, Res.bind_ok]
  · have := f3 j b k x1 (by rwa [Nat.zero_add]) x3 (by rwa [Nat.zero_add])
    rwa [Nat.zero_add] at this

/-! ## Loading an entry -/

theorem readId_two (m : Mem) (p : Nat) {a b : UInt8} (h1 : mrd m p = .ok a) (h2 : mrd m (p + 1) = .ok b) : readId m p 2 = .ok [a, b] := by
  rw [readId, h1, Res.bind_ok, readId, h2, Res.bind_ok, readId]
  rfl

theorem stored_length {m : Mem} {p : Nat} {e : DirEntry} {ty : UInt8} (h : Stored m p e ty)
    (hu : ∀ x ∈ e.name, 0 < x ∧ x < 256) : ∀ (f j : Nat), j ≤ e.name.length → e.name.length < j + f →
    actualLen m p (if e.name.length * 2 + 2 > 64 then 64 else e.name.length * 2 + 2) f (2 * j) = .ok (2 * e.name.length) := by
  have hs := h.short
  intro f
  induction f with
  | zero => intro j h1 h2; omega
  | succ f ih =>
    intro j h1 h2
    rw [actualLen]
    by_cases hj : j < e.name.length
    · rw [if_pos (by split <;> omega)]
      rw [h.low j _ (List.getElem?_eq_getElem hj), Res.bind_ok]
      have hx := hu _ (List.getElem_mem hj)
      have hne : UInt8.ofNat e.name[j] ≠ 0 := fun hc => by
        have := congrArg UInt8.toNat hc
        rw [UInt8.toNat_ofNat'] at this
        simp only [UInt8.toNat_zero] at this
        omega
      rw [if_pos hne, show 2 * j + 2 = 2 * (j + 1) by omega]
      exact ih (j + 1) (by omega) (by omega)
    · have hje : j = e.name.length := by omega
      by_cases h32 : j < 32
      · rw [if_pos (by split <;> omega), h.rest j (by omega) h32, Res.bind_ok, if_neg (by simp), hje]
      · rw [if_neg (by split <;> omega), hje]

theorem stored_name {m : Mem} {p : Nat} {e : DirEntry} {ty : UInt8} (h : Stored m p e ty)
    (hu : ∀ x ∈ e.name, 0 < x ∧ x < 256) : ∀ (n j : Nat), j + n = e.name.length → wchars m 2 (p + 2 * j) n = .ok (e.name.drop j) := by
  have hs := h.short
  intro n
  induction n with
  | zero => intro j hj; rw [wchars, List.drop_eq_nil_of_le (by omega)]
  | succ n ih =>
    intro j hj
    have hlt : j < e.name.length := by omega
    rw [wchars, readId_two m _ (h.low j _ (List.getElem?_eq_getElem hlt)) (h.high j (by omega)), Res.bind_ok,
      show p + 2 * j + 2 = p + 2 * (j + 1) by omega, ih (j + 1) (by omega), Res.bind_ok, List.drop_eq_getElem_cons hlt]
    have hx := hu _ (List.getElem_mem hlt)
    have : leVal [UInt8.ofNat e.name[j], 0] = e.name[j] := by
      simp only [leVal, UInt8.toNat_ofNat', UInt8.toNat_zero]
      omega
    rw [this]

theorem stored_load {m : Mem} {p : Nat} {e : DirEntry} {ty : UInt8} (h : Stored m p e ty) (hu : ∀ x ∈ e.name, 0 < x ∧ x < 256) :
    loadEntry Abi.windows m p = .ok { e with valid := decide (ty = 2 ∨ ty = 1 ∨ ty = 5), dir := decide (ty ≠ 2) } := by
  have hs := h.short
  have hl := stored_length h hu 33 0 (by omega) (by omega)
  have hn := stored_name h hu e.name.length 0 (by omega)
  rw [Nat.mul_zero] at hl
  rw [Nat.mul_zero, Nat.add_zero, List.drop_zero] at hn
  unfold loadEntry
  simp only [Nat.add_comm _ p]
  rw [h.len, Res.bind_ok]
  rw [hl, Res.bind_ok, Nat.mul_div_cancel_left _ (by decide), show Abi.windows.wcharBytes = 2 from rfl, hn, Res.bind_ok, h.type, Res.bind_ok,
    h.start, Res.bind_ok, h.size, Res.bind_ok, h.prev, Res.bind_ok, h.next, Res.bind_ok, h.child, Res.bind_ok]
  have : ¬ (if e.name.length * 2 + 2 > 64 then 64 else e.name.length * 2 + 2) < 1 := by split <;> omega
  simp only [this, not_false_eq_true, and_true]

end Fileid.Pole
