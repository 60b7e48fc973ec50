import Verif.Spec.AsfWalk
import Verif.Props.AsfFramed

/-! # The walk through ASF files, object by object -/

namespace Fileid.Asf

open Common Spec Spec.Asf
open Fileid.Props (bind_nf)

theorem rdRange_back {b bs : Bytes} {off n : Nat} (h : rdRange b off n = .ok bs) : off + n ≤ b.length ∧ bs = (b.drop off).take n := by
  unfold rdRange at h
  split at h
  · injection h with h; exact ⟨by assumption, h.symm⟩
  · cases h

theorem ulong_back {abi : Abi} (habi : abi = Abi.linux ∨ abi = Abi.windows) {b : Bytes} {max off n : Nat} (h : ReadULong abi b max off = .ok n) :
    off + abi.ulongBytes ≤ b.length ∧ n = littleEndian ((b.drop off).take abi.ulongBytes) := by
  unfold ReadULong at h
  split at h
  · cases h
  · obtain ⟨bs, h1, h⟩ := bind_back h
    obtain ⟨h2, rfl⟩ := rdRange_back h1
    injection h with h
    exact ⟨h2, by rw [← h, leVal_eq]⟩

theorem readBuffer_back {room : Nat} {b bs : Bytes} {off n : Nat} (h : readBuffer room b off n = .ok bs) :
    off + n ≤ b.length ∧ bs = (b.drop off).take n := by
  unfold readBuffer at h
  split at h
  · cases h
  · split at h
    · cases h
    · exact rdRange_back h

theorem rdRange_nf (b : Bytes) (off n : Nat) : rdRange b off n ≠ .fuel := by
  unfold rdRange; split <;> simp

theorem ReadULong_nf (abi : Abi) (b : Bytes) (max off : Nat) : ReadULong abi b max off ≠ .fuel := by
  unfold ReadULong
  split
  · simp
  · exact bind_nf (rdRange_nf _ _ _) fun _ _ => ok_ne_fuel _

theorem newHeaderExt_nf {abi : Abi} (habi : abi = Abi.linux ∨ abi = Abi.windows) {room f : Nat} {data : Bytes}
    (h : ∀ inner, Holds abi.ulongBytes data inner → extLoop (Parse abi room f inner inner.length) inner.length f 0 [] ≠ .fuel) :
    newHeaderExt abi room (Parse abi room f) f data ≠ .fuel := by
  unfold newHeaderExt
  dsimp only
  refine bind_nf (rdRange_nf _ _ _) fun g hg => ?_
  obtain ⟨g1, g2⟩ := rdRange_back hg
  have hg16 : g.length = 16 := by rw [g2]; simp; omega
  rw [fromGuid_eq hg16, Res.bind_ok]
  refine bind_nf (ReadUShort_ne_fuel _ _ _ _) fun _ _ => ?_
  refine bind_nf (ReadULong_nf _ _ _ _) fun n hn => ?_
  refine bind_nf (readBuffer_nf _ _ _ _) fun inner hin => ?_
  obtain ⟨n1, n2⟩ := ulong_back habi hn
  obtain ⟨i1, i2⟩ := readBuffer_back hin
  have hlen : inner.length = n := by rw [i2]; simp; omega
  have := h inner ⟨n1, by omega, by rw [hlen, n2], by rw [hlen]; exact i2⟩
  rw [hlen] at this ⊢
  exact bind_nf this fun _ _ => ok_ne_fuel _

theorem newHeaderExt_never {abi : Abi} (habi : abi = Abi.linux ∨ abi = Abi.windows) {room f : Nat} {data inner : Bytes} (hh : Holds abi.ulongBytes data inner)
    (h : ∀ l, extLoop (Parse abi room f inner inner.length) inner.length f 0 [] ≠ .ok l) (obj : Obj) :
    newHeaderExt abi room (Parse abi room f) f data ≠ .ok obj := by
  intro ho
  unfold newHeaderExt at ho
  dsimp only at ho
  obtain ⟨_, _, ho⟩ := bind_back ho
  obtain ⟨_, _, ho⟩ := bind_back ho
  obtain ⟨_, _, ho⟩ := bind_back ho
  obtain ⟨n, hn, ho⟩ := bind_back ho
  obtain ⟨e, he, ho⟩ := bind_back ho
  obtain ⟨l, hl, ho⟩ := bind_back ho
  obtain ⟨_, n2⟩ := ulong_back habi hn
  obtain ⟨_, i2⟩ := readBuffer_back he
  obtain ⟨_, _, h3, h4⟩ := hh
  rw [h3] at n2
  subst n2
  rw [← h4] at i2
  subst i2
  exact h l hl

theorem newHeader_data {abi : Abi} {data : Bytes} {n : Nat} {obj : Obj} (h : newHeader abi data n = .ok obj) : obj.data = [] := by
  unfold newHeader at h
  obtain ⟨_, _, h⟩ := bind_back h
  obtain ⟨_, _, h⟩ := bind_back h
  obtain ⟨_, _, h⟩ := bind_back h
  injection h with h
  rw [← h]; rfl

/-- 24 bytes begin with an identifier and a size. -/
theorem begins {bs : Bytes} (h : 24 ≤ bs.length) : ∃ id size tail, bs = id ++ leBytes 8 size ++ tail ∧ id.length = 16 ∧ size < 2 ^ 64 := by
  refine ⟨bs.take 16, leVal ((bs.drop 16).take 8), bs.drop 24, ?_, by simp; omega, ?_⟩
  · have hl : ((bs.drop 16).take 8).length = 8 := by simp; omega
    have := leBytes_leVal ((bs.drop 16).take 8)
    rw [hl] at this
    rw [this]
    conv => lhs; rw [← List.take_append_drop 16 bs, ← List.take_append_drop 8 (bs.drop 16), List.drop_drop]
    simp
  · have hl : ((bs.drop 16).take 8).length = 8 := by simp; omega
    have := leVal_lt ((bs.drop 16).take 8)
    rw [hl] at this
    exact this

theorem parse_short {abi : Abi} {room f : Nat} {pre tail : Bytes} (h : tail.length < 24) (hb : (pre ++ tail).length < 2 ^ 31) :
    Parse abi room (f + 1) (pre ++ tail) (pre ++ tail).length pre.length = .ok none := by
  have hl : (pre ++ tail).length = pre.length + tail.length := List.length_append
  rw [Parse]
  split
  · rfl
  · rename_i h16
    have : rdRange (pre ++ tail) pre.length 16 = .ok (((pre ++ tail).drop pre.length).take 16) := by
      unfold rdRange; rw [if_pos (by unfold u32 at h16; omega)]
    rw [this, Res.bind_ok]
    dsimp only
    rw [if_pos (by unfold u32 at h16 ⊢; omega)]

theorem parse_cut {abi : Abi} {room f size : Nat} {pre id data : Bytes} (hi : id.length = 16) (hs : 24 + data.length < size) (hs' : size < 2 ^ 64)
    (hb : (pre ++ (id ++ leBytes 8 size ++ data)).length < 2 ^ 31) :
    Parse abi room (f + 1) (pre ++ (id ++ leBytes 8 size ++ data)) (pre ++ (id ++ leBytes 8 size ++ data)).length pre.length = .ok none ∨
    Parse abi room (f + 1) (pre ++ (id ++ leBytes 8 size ++ data)) (pre ++ (id ++ leBytes 8 size ++ data)).length pre.length =
      .throw .lengthError := by
  have hat : At (pre ++ (id ++ leBytes 8 size ++ data)) pre.length (id ++ (leBytes 8 size ++ data)) := ⟨pre, [], by simp, rfl⟩
  have hl : (pre ++ (id ++ leBytes 8 size ++ data)).length = pre.length + 24 + data.length := by
    simp only [List.length_append, leBytes_length]; omega
  generalize pre ++ (id ++ leBytes 8 size ++ data) = b at *
  obtain ⟨a0, a1⟩ := at_append hat
  obtain ⟨a1, _⟩ := at_append a1
  rw [hi] at a1
  rw [Parse, if_neg (by unfold u32; omega), rdRange_of_at a0 hi.symm, Res.bind_ok]
  dsimp only
  rw [if_neg (by unfold u32; omega), show u32 (pre.length + 16) = pre.length + 16 by unfold u32; omega, llong_at a1 hs' (by omega), Res.bind_ok]
  split
  · exact Or.inl rfl
  · rename_i hwrap
    right
    unfold readBuffer
    rw [if_pos (by unfold u32 sub64 u64 at *; omega)]
    rfl

theorem parse_small {abi : Abi} {room f size : Nat} {pre id data : Bytes} (hi : id.length = 16) (hs : size < 24)
    (hb : (pre ++ (id ++ leBytes 8 size ++ data)).length < 2 ^ 31) :
    Parse abi room (f + 1) (pre ++ (id ++ leBytes 8 size ++ data)) (pre ++ (id ++ leBytes 8 size ++ data)).length pre.length =
      .throw .lengthError := by
  have hat : At (pre ++ (id ++ leBytes 8 size ++ data)) pre.length (id ++ (leBytes 8 size ++ data)) := ⟨pre, [], by simp, rfl⟩
  have hl : (pre ++ (id ++ leBytes 8 size ++ data)).length = pre.length + 24 + data.length := by
    simp only [List.length_append, leBytes_length]; omega
  generalize pre ++ (id ++ leBytes 8 size ++ data) = b at *
  obtain ⟨a0, a1⟩ := at_append hat
  obtain ⟨a1, _⟩ := at_append a1
  rw [hi] at a1
  rw [Parse, if_neg (by unfold u32; omega), rdRange_of_at a0 hi.symm, Res.bind_ok]
  dsimp only
  rw [if_neg (by unfold u32; omega), show u32 (pre.length + 16) = pre.length + 16 by unfold u32; omega, llong_at a1 (by omega) (by omega), Res.bind_ok,
    if_neg (by unfold u32 sub64 u64; omega)]
  unfold readBuffer
  rw [if_pos (by unfold sub64; omega)]
  rfl

/-- What is at a place: nothing, too little, an object that is cut off, an object with an impossible size, or an object. -/
theorem kinds (bs : Bytes) : bs = [] ∨ (0 < bs.length ∧ bs.length < 24) ∨
    (∃ id size data, bs = id ++ leBytes 8 size ++ data ∧ id.length = 16 ∧ 24 + data.length < size ∧ size < 2 ^ 64) ∨
    (∃ id size data, bs = id ++ leBytes 8 size ++ data ∧ id.length = 16 ∧ size < 24) ∨
    ∃ id data rest, bs = frame id data ++ rest ∧ id.length = 16 := by
  by_cases h0 : bs.length = 0
  · exact Or.inl (List.length_eq_zero_iff.1 h0)
  by_cases h24 : bs.length < 24
  · exact Or.inr (Or.inl ⟨by omega, h24⟩)
  obtain ⟨id, size, tail, he, hi, hs⟩ := begins (by omega : 24 ≤ bs.length)
  right; right
  by_cases h1 : 24 + tail.length < size
  · exact Or.inl ⟨id, size, tail, he, hi, h1, hs⟩
  by_cases h2 : size < 24
  · exact Or.inr (Or.inl ⟨id, size, tail, he, hi, h2⟩)
  refine Or.inr (Or.inr ⟨id, tail.take (size - 24), tail.drop (size - 24), ?_, hi⟩)
  have hl : 24 + (tail.take (size - 24)).length = size := by simp; omega
  rw [frame, hl, he, List.append_assoc _ (List.take _ _), List.take_append_drop]

/-- The walk through the content of an extension comes to an end. -/
def ExtEnds (abi : Abi) (bs : Bytes) : Prop := ∀ (room f : Nat) (pre : Bytes), (pre ++ bs).length < 2 ^ 31 → (pre ++ bs).length ≤ room →
  bs.length < f → ∀ g acc, bs.length < g →
  extLoop (Parse abi room f (pre ++ bs) (pre ++ bs).length) (pre ++ bs).length g pre.length acc ≠ .fuel

/-- Making an object comes to an end. -/
theorem construct_ends {abi : Abi} (habi : abi = Abi.linux ∨ abi = Abi.windows) {id data : Bytes} {room f size : Nat}
    (hb : data.length < 2 ^ 31) (hr : data.length ≤ room) (hf : data.length < f)
    (h : ∀ inner, id = headerExtId → Holds abi.ulongBytes data inner → ExtEnds abi inner) :
    constructAs abi room (Parse abi room f) f (typeOf id) size data ≠ .fuel := by
  by_cases he : id = headerExtId
  · subst he
    rw [typeOf_handled (.ASF_Header_Extension_Object, headerExtId) (by simp [handled])]
    unfold constructAs
    refine newHeaderExt_nf habi fun inner hh => ?_
    have hle : inner.length ≤ data.length := by have := hh.2.1; omega
    exact h inner rfl hh room f [] (by simpa using by omega) (by simpa using by omega) (by omega) f [] (by omega)
  · exact constructAs_nf fun ht => he (typeOf_ext ht)

theorem ext_ends {abi : Abi} (habi : abi = Abi.linux ∨ abi = Abi.windows) : ∀ (n : Nat) (bs : Bytes), bs.length = n →
    ¬ Stuck abi.ulongBytes bs → ExtEnds abi bs := by
  intro n
  induction n using Nat.strongRecOn with
  | ind n ih =>
    intro bs hn hns room f pre hb hr hf g acc hg
    obtain ⟨g, rfl⟩ : ∃ k, g = k + 1 := ⟨g - 1, by omega⟩
    obtain ⟨f, rfl⟩ : ∃ k, f = k + 1 := ⟨f - 1, by omega⟩
    rw [extLoop]
    rcases kinds bs with rfl | ⟨h0, h24⟩ | ⟨id, size, data, rfl, hi, hs, hs'⟩ | ⟨id, size, data, rfl, hi, hs⟩ | ⟨id, data, rest, rfl, hi⟩
    · rw [if_neg (by simp)]; exact ok_ne_fuel _
    · exact absurd (.short h0 h24) hns
    · exact absurd (.cut hi hs hs') hns
    · split
      · rw [parse_small hi hs hb]; simp [Res.bind_throw]
      · exact ok_ne_fuel _
    · have hlen : (frame id data ++ rest).length = 24 + data.length + rest.length := by rw [List.length_append, frame_length hi]
      have hpl : (pre ++ (frame id data ++ rest)).length = pre.length + (24 + data.length + rest.length) := by rw [List.length_append, hlen]
      rw [if_pos (by omega)]
      have hat : At (pre ++ (frame id data ++ rest)) pre.length (frame id data) := ⟨pre, rest, by simp, rfl⟩
      have hp := parse_frame (abi := abi) (fuel := f) hi hat (by omega) hr
      rw [construct_eq hi] at hp
      rw [hp]
      refine bind_nf (bind_nf (construct_ends habi (by omega) (by omega) (by omega) fun inner he hh => ?_) fun _ _ => ok_ne_fuel _) fun o ho => ?_
      · subst he
        have := hh.2.1
        exact ih inner.length (by omega) inner rfl fun h => hns (.inside hh h)
      · obtain ⟨obj, ho', hs⟩ := bind_back ho
        injection hs with hs
        subst hs
        dsimp only
        by_cases hh : id = headerId
        · subst hh
          rw [typeOf_handled (.ASF_Header_Object, headerId) (by simp [handled])] at ho'
          rw [newHeader_data ho']
          have := ih (data ++ rest).length (by rw [List.length_append]; omega) (data ++ rest) rfl (fun h => hns (.into h)) room (f + 1)
            (pre ++ (headerId ++ leBytes 8 (24 + data.length)))
          have he : pre ++ (headerId ++ leBytes 8 (24 + data.length)) ++ (data ++ rest) = pre ++ (frame headerId data ++ rest) := by
            simp [frame]
          have hl : (pre ++ (headerId ++ leBytes 8 (24 + data.length))).length = pre.length + 24 := by
            simp only [List.length_append, leBytes_length, hi]
          rw [he, hl] at this
          rw [show u32 (pre.length + 24 + ([] : Bytes).length) = pre.length + 24 by unfold u32; simp; omega]
          exact this hb hr (by rw [List.length_append]; omega) g _ (by rw [List.length_append]; omega)
        · rw [constructAs_data (fun h => hh (typeOf_header h)) ho']
          have := ih rest.length (by omega) rest rfl (fun h => hns (.after hi hh h)) room (f + 1) (pre ++ frame id data)
          have hl : (pre ++ frame id data).length = pre.length + (24 + data.length) := by rw [List.length_append, frame_length hi]
          rw [List.append_assoc, hl] at this
          rw [show u32 (pre.length + 24 + data.length) = pre.length + (24 + data.length) by unfold u32; omega]
          exact this hb hr (by omega) g _ (by omega)

theorem header_ends {abi : Abi} (habi : abi = Abi.linux ∨ abi = Abi.windows) (k : Nat) : ∀ (bs pre : Bytes) (size room f : Nat),
    ¬ StuckHeader abi.ulongBytes k (size - pre.length) bs → (pre ++ bs).length < 2 ^ 31 → (pre ++ bs).length ≤ room → bs.length < f →
    ∀ info acc, headerLoop (Parse abi room f (pre ++ bs) (pre ++ bs).length) size k pre.length info acc ≠ .fuel := by
  induction k with
  | zero => intro bs pre size room f _ _ _ _ info acc; exact ok_ne_fuel _
  | succ k ih =>
    intro bs pre size room f hns hb hr hf info acc
    rw [headerLoop]
    by_cases hsz : pre.length < size
    · rw [if_pos hsz]
      have h0 : 0 < size - pre.length := by omega
      obtain ⟨f, rfl⟩ : ∃ k, f = k + 1 := ⟨f - 1, by omega⟩
      rcases kinds bs with rfl | ⟨_, h24⟩ | ⟨id, sz, data, rfl, hi, hs, hs'⟩ | ⟨id, sz, data, rfl, hi, hs⟩ | ⟨id, data, rest, rfl, hi⟩
      · rw [parse_short (by simp) hb, Res.bind_ok]; exact ok_ne_fuel _
      · rw [parse_short h24 hb, Res.bind_ok]; exact ok_ne_fuel _
      · rcases parse_cut (abi := abi) (room := room) (f := f) (pre := pre) hi hs hs' hb with h | h
        · rw [h, Res.bind_ok]; exact ok_ne_fuel _
        · rw [h]; simp [Res.bind_throw]
      · rw [parse_small hi hs hb]; simp [Res.bind_throw]
      · have hlen : (frame id data ++ rest).length = 24 + data.length + rest.length := by rw [List.length_append, frame_length hi]
        have hpl : (pre ++ (frame id data ++ rest)).length = pre.length + (24 + data.length + rest.length) := by rw [List.length_append, hlen]
        have hat : At (pre ++ (frame id data ++ rest)) pre.length (frame id data) := ⟨pre, rest, by simp, rfl⟩
        have hp := parse_frame (abi := abi) (fuel := f) hi hat (by omega) hr
        rw [construct_eq hi] at hp
        rw [hp]
        refine bind_nf (bind_nf (construct_ends habi (by omega) (by omega) (by omega) fun inner he hh => ?_) fun _ _ => ok_ne_fuel _) fun o ho => ?_
        · subst he
          exact ext_ends habi _ inner rfl fun h => hns (.here h0 hh h)
        · obtain ⟨obj, ho', hs⟩ := bind_back ho
          injection hs with hs
          subst hs
          dsimp only
          by_cases hh : id = headerId
          · subst hh
            rw [typeOf_handled (.ASF_Header_Object, headerId) (by simp [handled])] at ho'
            rw [newHeader_data ho']
            have := ih (data ++ rest) (pre ++ (headerId ++ leBytes 8 (24 + data.length))) size room (f + 1)
            have he : pre ++ (headerId ++ leBytes 8 (24 + data.length)) ++ (data ++ rest) = pre ++ (frame headerId data ++ rest) := by
              simp [frame]
            have hl : (pre ++ (headerId ++ leBytes 8 (24 + data.length))).length = pre.length + 24 := by
              simp only [List.length_append, leBytes_length, hi]
            rw [he, hl, ← Nat.sub_sub] at this
            rw [show u32 (pre.length + 24 + ([] : Bytes).length) = pre.length + 24 by unfold u32; simp; omega]
            exact this (fun h => hns (.into h0 h)) hb hr (by rw [List.length_append]; omega) _ _
          · rw [constructAs_data (fun h => hh (typeOf_header h)) ho']
            have := ih rest (pre ++ frame id data) size room (f + 1)
            have hl : (pre ++ frame id data).length = pre.length + (24 + data.length) := by rw [List.length_append, frame_length hi]
            rw [List.append_assoc, hl, ← Nat.sub_sub] at this
            rw [show u32 (pre.length + 24 + data.length) = pre.length + (24 + data.length) by unfold u32; omega]
            exact this (fun h => hns (.later h0 hi hh h)) hb hr (by omega) _ _
    · rw [if_neg hsz]; exact ok_ne_fuel _

/-- The walk through the content of an extension gives no result. -/
def NoResult (abi : Abi) (bs : Bytes) : Prop := ∀ (room f : Nat) (pre : Bytes), (pre ++ bs).length < 2 ^ 31 → (pre ++ bs).length ≤ room →
  ∀ g acc l, extLoop (Parse abi room f (pre ++ bs) (pre ++ bs).length) (pre ++ bs).length g pre.length acc ≠ .ok l

theorem ext_stuck {abi : Abi} (habi : abi = Abi.linux ∨ abi = Abi.windows) {bs : Bytes} (h : Stuck abi.ulongBytes bs) : NoResult abi bs := by
  induction h with
  | @short tail h0 h24 =>
    intro room f pre hb hr
    refine stuck_at (by rw [List.length_append]; omega) fun o ho => ?_
    cases f with
    | zero => cases ho
    | succ f => rw [parse_short h24 hb] at ho; cases ho
  | @cut id data size hi hs hs' =>
    intro room f pre hb hr
    refine stuck_at (by simp only [List.length_append, leBytes_length]; omega) fun o ho => ?_
    cases f with
    | zero => cases ho
    | succ f =>
      rcases parse_cut (abi := abi) (room := room) (f := f) (pre := pre) hi hs hs' hb with h | h <;> rw [h] at ho <;> cases ho
  | @after id data rest hi hh _ ih =>
    intro room f pre hb hr g acc l hl
    have hpl : (pre ++ (frame id data ++ rest)).length = pre.length + (24 + data.length + rest.length) := by
      rw [List.length_append, List.length_append, frame_length hi]
    have hat : At (pre ++ (frame id data ++ rest)) pre.length (frame id data) := ⟨pre, rest, by simp, rfl⟩
    cases g with
    | zero => cases hl
    | succ g =>
      rw [extLoop, if_pos (by omega)] at hl
      cases f with
      | zero => cases hl
      | succ f =>
        obtain ⟨o, ho, hl⟩ := bind_back hl
        rw [parse_frame hi hat (by omega) hr, construct_eq hi] at ho
        obtain ⟨obj, ho', hs⟩ := bind_back ho
        injection hs with hs
        subst hs
        dsimp only at hl
        rw [constructAs_data (fun h => hh (typeOf_header h)) ho',
          show u32 (pre.length + 24 + data.length) = pre.length + (24 + data.length) by unfold u32; omega] at hl
        have := ih room (f + 1) (pre ++ frame id data)
        have hl' : (pre ++ frame id data).length = pre.length + (24 + data.length) := by rw [List.length_append, frame_length hi]
        rw [List.append_assoc, hl'] at this
        exact this hb hr _ _ _ hl
  | @into data rest _ ih =>
    intro room f pre hb hr g acc l hl
    have hi : headerId.length = 16 := ids_length (.ASF_Header_Object, headerId) (by simp [handled])
    have hpl : (pre ++ (frame headerId data ++ rest)).length = pre.length + (24 + data.length + rest.length) := by
      rw [List.length_append, List.length_append, frame_length hi]
    have hat : At (pre ++ (frame headerId data ++ rest)) pre.length (frame headerId data) := ⟨pre, rest, by simp, rfl⟩
    cases g with
    | zero => cases hl
    | succ g =>
      rw [extLoop, if_pos (by omega)] at hl
      cases f with
      | zero => cases hl
      | succ f =>
        obtain ⟨o, ho, hl⟩ := bind_back hl
        rw [parse_frame hi hat (by omega) hr, construct_eq hi, typeOf_handled (.ASF_Header_Object, headerId) (by simp [handled])] at ho
        obtain ⟨obj, ho', hs⟩ := bind_back ho
        injection hs with hs
        subst hs
        dsimp only at hl
        rw [newHeader_data ho', show u32 (pre.length + 24 + ([] : Bytes).length) = pre.length + 24 by unfold u32; simp; omega] at hl
        have := ih room (f + 1) (pre ++ (headerId ++ leBytes 8 (24 + data.length)))
        have he : pre ++ (headerId ++ leBytes 8 (24 + data.length)) ++ (data ++ rest) = pre ++ (frame headerId data ++ rest) := by
          simp [frame]
        have hl' : (pre ++ (headerId ++ leBytes 8 (24 + data.length))).length = pre.length + 24 := by
          simp only [List.length_append, leBytes_length, hi]
        rw [he, hl'] at this
        exact this hb hr _ _ _ hl
  | @inside data inner rest hh _ ih =>
    intro room f pre hb hr
    have hi : headerExtId.length = 16 := ids_length (.ASF_Header_Extension_Object, headerExtId) (by simp [handled])
    have hpl : (pre ++ (frame headerExtId data ++ rest)).length = pre.length + (24 + data.length + rest.length) := by
      rw [List.length_append, List.length_append, frame_length hi]
    have hat : At (pre ++ (frame headerExtId data ++ rest)) pre.length (frame headerExtId data) := ⟨pre, rest, by simp, rfl⟩
    have hle := hh.2.1
    refine stuck_at (by omega) fun o ho => ?_
    cases f with
    | zero => cases ho
    | succ f =>
      rw [parse_frame hi hat (by omega) hr, construct_eq hi, typeOf_handled (.ASF_Header_Extension_Object, headerExtId) (by simp [handled])] at ho
      obtain ⟨obj, ho', _⟩ := bind_back ho
      exact newHeaderExt_never habi hh (fun l => ih room f [] (by simpa using by omega) (by simpa using by omega) f [] l) obj ho'

theorem header_stuck {abi : Abi} (habi : abi = Abi.linux ∨ abi = Abi.windows) {k left : Nat} {bs : Bytes}
    (h : StuckHeader abi.ulongBytes k left bs) : ∀ (room f size : Nat) (pre : Bytes), left = size - pre.length → (pre ++ bs).length < 2 ^ 31 →
    (pre ++ bs).length ≤ room → ∀ info acc r,
    headerLoop (Parse abi room f (pre ++ bs) (pre ++ bs).length) size k pre.length info acc ≠ .ok r := by
  induction h with
  | @here data inner rest k left h0 hh hst =>
    intro room f size pre hleft hb hr info acc r hl
    have hi : headerExtId.length = 16 := ids_length (.ASF_Header_Extension_Object, headerExtId) (by simp [handled])
    have hpl : (pre ++ (frame headerExtId data ++ rest)).length = pre.length + (24 + data.length + rest.length) := by
      rw [List.length_append, List.length_append, frame_length hi]
    have hat : At (pre ++ (frame headerExtId data ++ rest)) pre.length (frame headerExtId data) := ⟨pre, rest, by simp, rfl⟩
    have hle := hh.2.1
    rw [headerLoop, if_pos (by omega)] at hl
    obtain ⟨o, ho, _⟩ := bind_back hl
    cases f with
    | zero => cases ho
    | succ f =>
      rw [parse_frame hi hat (by omega) hr, construct_eq hi, typeOf_handled (.ASF_Header_Extension_Object, headerExtId) (by simp [handled])] at ho
      obtain ⟨obj, ho', _⟩ := bind_back ho
      exact newHeaderExt_never habi hh (fun l => ext_stuck habi hst room f [] (by simpa using by omega) (by simpa using by omega) f [] l) obj ho'
  | @later id data rest k left h0 hi hh _ ih =>
    intro room f size pre hleft hb hr info acc r hl
    have hpl : (pre ++ (frame id data ++ rest)).length = pre.length + (24 + data.length + rest.length) := by
      rw [List.length_append, List.length_append, frame_length hi]
    have hat : At (pre ++ (frame id data ++ rest)) pre.length (frame id data) := ⟨pre, rest, by simp, rfl⟩
    rw [headerLoop, if_pos (by omega)] at hl
    cases f with
    | zero => cases hl
    | succ f =>
      obtain ⟨o, ho, hl⟩ := bind_back hl
      rw [parse_frame hi hat (by omega) hr, construct_eq hi] at ho
      obtain ⟨obj, ho', hs⟩ := bind_back ho
      injection hs with hs
      subst hs
      dsimp only at hl
      rw [constructAs_data (fun h => hh (typeOf_header h)) ho',
        show u32 (pre.length + 24 + data.length) = pre.length + (24 + data.length) by unfold u32; omega] at hl
      have := ih room (f + 1) size (pre ++ frame id data)
      have hl' : (pre ++ frame id data).length = pre.length + (24 + data.length) := by rw [List.length_append, frame_length hi]
      rw [List.append_assoc, hl'] at this
      exact this (by omega) hb hr _ _ _ hl
  | @into data rest k left h0 _ ih =>
    intro room f size pre hleft hb hr info acc r hl
    have hi : headerId.length = 16 := ids_length (.ASF_Header_Object, headerId) (by simp [handled])
    have hpl : (pre ++ (frame headerId data ++ rest)).length = pre.length + (24 + data.length + rest.length) := by
      rw [List.length_append, List.length_append, frame_length hi]
    have hat : At (pre ++ (frame headerId data ++ rest)) pre.length (frame headerId data) := ⟨pre, rest, by simp, rfl⟩
    rw [headerLoop, if_pos (by omega)] at hl
    cases f with
    | zero => cases hl
    | succ f =>
      obtain ⟨o, ho, hl⟩ := bind_back hl
      rw [parse_frame hi hat (by omega) hr, construct_eq hi, typeOf_handled (.ASF_Header_Object, headerId) (by simp [handled])] at ho
      obtain ⟨obj, ho', hs⟩ := bind_back ho
      injection hs with hs
      subst hs
      dsimp only at hl
      rw [newHeader_data ho', show u32 (pre.length + 24 + ([] : Bytes).length) = pre.length + 24 by unfold u32; simp; omega] at hl
      have := ih room (f + 1) size (pre ++ (headerId ++ leBytes 8 (24 + data.length)))
      have he : pre ++ (headerId ++ leBytes 8 (24 + data.length)) ++ (data ++ rest) = pre ++ (frame headerId data ++ rest) := by
        simp [frame]
      have hl' : (pre ++ (headerId ++ leBytes 8 (24 + data.length))).length = pre.length + 24 := by
        simp only [List.length_append, leBytes_length, hi]
      rw [he, hl'] at this
      exact this (by omega) hb hr _ _ _ hl

end Fileid.Asf
