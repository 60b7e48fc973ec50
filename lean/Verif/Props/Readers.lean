import Verif.Model.Common
import Verif.Lemmas.Bytes

/-!
# Bounded reads (C18 - C23)
-/

namespace Fileid.Props

open Common Spec

/-! ## C18, C19 two- and four-byte integers

In all statements `max` is the size the caller declares; the real buffer is at least that long. -/

/-- C18/C19 for 2-byte unsigned reads inside the buffer: the value in the requested byte order. -/
theorem C19_ushort_order (buffer : Bytes) (max offset : Nat) (big : Bool) (a b : UInt8)
    (h : At buffer offset [a, b]) (hmax : offset + 2 ≤ max) (h32 : offset + 2 ≤ 2 ^ 32) :
    ReadUShort buffer max offset big = .ok (inOrder big [a, b]) := by
  have e1 : u32 (offset + 1) = offset + 1 := by unfold u32; omega
  have r0 : rd buffer offset = .ok a := by
    have := h.getElem? 0 (by simp); simp at this; simp [rd, this]
  have r1 : rd buffer (offset + 1) = .ok b := by
    have := h.getElem? 1 (by simp); simp at this; simp [rd, this]
  have ha := a.toNat_lt
  have hb := b.toNat_lt
  unfold ReadUShort
  rw [e1, if_neg (by omega)]
  cases big
  · simp only [r0, r1, Res.bind_ok, or16, inOrder, littleEndian, bigEndian, u16]
    simp; omega
  · simp only [r0, r1, Res.bind_ok, or16, inOrder, bigEndian, u16]
    simp; omega

example : At [1, 2, 3] 1 [2, 3] ∧ 1 + 2 ≤ 3 := ⟨⟨[1], [], rfl, rfl⟩, by decide⟩

/-- The signed 2-byte read is the two's complement reading of the unsigned one. -/
theorem ReadSShort_eq (buffer : Bytes) (max offset : Nat) (big : Bool) :
    ReadSShort buffer max offset big =
      (ReadUShort buffer max offset big >>= fun n => .ok (twosComplement 16 n)) := by
  unfold ReadSShort ReadUShort
  split
  · rfl
  · cases big <;> simp only [Bool.false_eq_true, if_false, if_true]
    all_goals
      cases h0 : rd buffer offset <;> cases h1 : rd buffer (u32 (offset + 1)) <;> simp only [Res.bind_ok,
        Res.bind_ub, Res.bind_throw, Res.bind_fuel, or16]
      rename_i a b
      have ha := a.toNat_lt
      have hb := b.toNat_lt
      rw [← toSigned_eq 16 _ (by unfold u16; omega)]
      unfold u16
      congr 2; omega

/-- C19 for signed 2-byte reads. -/
theorem C19_sshort_order (buffer : Bytes) (max offset : Nat) (big : Bool) (a b : UInt8)
    (h : At buffer offset [a, b]) (hmax : offset + 2 ≤ max) (h32 : offset + 2 ≤ 2 ^ 32) :
    ReadSShort buffer max offset big = .ok (twosComplement 16 (inOrder big [a, b])) := by
  rw [ReadSShort_eq, C19_ushort_order buffer max offset big a b h hmax h32]; rfl

/-- What the 4-byte read does inside the buffer: the byte order is the opposite of the requested one. -/
theorem C19_uint_reversed_partial (buffer : Bytes) (max offset : Nat) (big : Bool) (a b c d : UInt8)
    (h : At buffer offset [a, b, c, d]) (hmax : offset + 4 ≤ max) (h32 : offset + 4 ≤ 2 ^ 32) :
    ReadUInt buffer max offset big = .ok (inOrder (!big) [a, b, c, d]) := by
  have e1 : u32 (offset + 1) = offset + 1 := by unfold u32; omega
  have e2 : u32 (offset + 2) = offset + 2 := by unfold u32; omega
  have e3 : u32 (offset + 3) = offset + 3 := by unfold u32; omega
  have r0 : rd buffer offset = .ok a := by
    have := h.getElem? 0 (by simp); simp at this; simp [rd, this]
  have r1 : rd buffer (offset + 1) = .ok b := by
    have := h.getElem? 1 (by simp); simp at this; simp [rd, this]
  have r2 : rd buffer (offset + 2) = .ok c := by
    have := h.getElem? 2 (by simp); simp at this; simp [rd, this]
  have r3 : rd buffer (offset + 3) = .ok d := by
    have := h.getElem? 3 (by simp); simp at this; simp [rd, this]
  have ha := a.toNat_lt
  have hb := b.toNat_lt
  have hc := c.toNat_lt
  have hd := d.toNat_lt
  unfold ReadUInt
  rw [e1, e2, e3, if_neg (by omega)]
  simp only [r0, r1, r2, r3, Res.bind_ok]
  cases big
  · simp [or32, inOrder, bigEndian, u32]; omega
  · simp [or32, inOrder, littleEndian, bigEndian, u32]; omega

/-- The signed 4-byte read is the two's complement reading of the unsigned one. -/
theorem ReadSInt_eq (buffer : Bytes) (max offset : Nat) (big : Bool) :
    ReadSInt buffer max offset big =
      (ReadUInt buffer max offset big >>= fun n => .ok (twosComplement 32 n)) := by
  unfold ReadSInt ReadUInt
  split
  · rfl
  · cases h0 : rd buffer offset <;> cases h1 : rd buffer (u32 (offset + 1)) <;>
      cases h2 : rd buffer (u32 (offset + 2)) <;> cases h3 : rd buffer (u32 (offset + 3)) <;>
      simp only [Res.bind_ok, Res.bind_ub, Res.bind_throw, Res.bind_fuel]
    rename_i a b c d
    have ha := a.toNat_lt
    have hb := b.toNat_lt
    have hc := c.toNat_lt
    have hd := d.toNat_lt
    cases big
    · simp only [Bool.false_eq_true, if_false, Res.bind_ok, or32]
      rw [← toSigned_eq 32 _ (by unfold u32; omega)]
      unfold u32; congr 2; omega
    · simp only [if_true, Res.bind_ok, or32]
      rw [← toSigned_eq 32 _ (by unfold u32; omega)]
      unfold u32; congr 2; omega

/-- C19 for signed 4-byte reads: reversed as well. -/
theorem C19_sint_reversed_partial (buffer : Bytes) (max offset : Nat) (big : Bool) (a b c d : UInt8)
    (h : At buffer offset [a, b, c, d]) (hmax : offset + 4 ≤ max) (h32 : offset + 4 ≤ 2 ^ 32) :
    ReadSInt buffer max offset big = .ok (twosComplement 32 (inOrder (!big) [a, b, c, d])) := by
  rw [ReadSInt_eq, C19_uint_reversed_partial buffer max offset big a b c d h hmax h32]; rfl

example : At [9, 1, 2, 3, 4] 1 [1, 2, 3, 4] ∧ ReadUInt [9, 1, 2, 3, 4] 5 1 true = .ok 0x04030201 :=
  ⟨⟨[9], [], rfl, rfl⟩, by decide⟩

/-- C19 is false of the 4-byte reads. -/
theorem C19_uint_order_wrong :
    ¬ ∀ (buffer : Bytes) (max offset : Nat) (big : Bool) (a b c d : UInt8),
      At buffer offset [a, b, c, d] → max = buffer.length → max < 2 ^ 32 →
      ReadUInt buffer max offset big = .ok (inOrder big [a, b, c, d]) := by
  intro h
  exact absurd (h [0, 0, 0, 1] 4 0 true 0 0 0 1 ⟨[], [], rfl, rfl⟩ rfl (by decide)) (by decide)

/-- C18 for 2-byte reads, complete description for a buffer below 4 GiB whose real size is declared: value
inside the buffer, range error outside it, except that the offset of the very last byte and the offset
`2^32 - 1` pass the check and read outside the buffer. -/
theorem C18_ushort_outcome_partial (buffer : Bytes) (offset : Nat) (big : Bool)
    (hlen : buffer.length < 2 ^ 32) (hoff : offset < 2 ^ 32) :
    (offset + 2 ≤ buffer.length → (ReadUShort buffer buffer.length offset big).isOk = true) ∧
    (offset + 1 = buffer.length ∨ offset = 2 ^ 32 - 1 →
      ReadUShort buffer buffer.length offset big = .ub .oobRead) ∧
    (buffer.length < offset + 1 → offset ≠ 2 ^ 32 - 1 →
      ReadUShort buffer buffer.length offset big = .throw .rangeError) := by
  refine ⟨?_, ?_, ?_⟩
  · intro h
    have hat := at_of_le (content := buffer) (off := offset) (n := 2) h
    have hl : ((buffer.drop offset).take 2).length = 2 := by
      rw [List.length_take, List.length_drop]; omega
    match hd : (buffer.drop offset).take 2, hl with
    | [a, b], _ =>
      rw [hd] at hat
      rw [C19_ushort_order buffer _ offset big a b hat h (by omega)]; rfl
  · intro h
    unfold ReadUShort
    rcases h with h | h
    · have e : u32 (offset + 1) = offset + 1 := by unfold u32; omega
      rw [e, if_neg (by omega), rd_ge (i := offset + 1) (by omega), rd_lt (i := offset) (by omega)]
      cases big <;> rfl
    · have e : u32 (offset + 1) = 0 := by unfold u32; omega
      rw [e, if_neg (by omega), rd_ge (i := offset) (by omega)]
      cases big
      · cases hb : rd buffer 0 with
        | ok x => rfl
        | ub u => cases buffer <;> simp [rd] at hb <;> simp [← hb]
        | throw x => cases buffer <;> simp [rd] at hb
        | fuel => cases buffer <;> simp [rd] at hb
      · rfl
  · intro h hne
    unfold ReadUShort
    have e : u32 (offset + 1) = offset + 1 := by unfold u32; omega
    rw [e, if_pos (by omega)]

/-- C18 is false of the code: the last byte's offset passes the check and the second byte is read from
outside the buffer. -/
theorem C18_ushort_unsafe :
    ¬ ∀ (buffer : Bytes) (max offset : Nat) (big : Bool), max ≤ buffer.length → max < 2 ^ 32 →
      offset < 2 ^ 32 → (ReadUShort buffer max offset big).isUB = false := by
  intro h
  exact absurd (h [1] 1 0 false (by decide) (by decide) (by decide)) (by decide)

/-- C18 for 4-byte reads: value inside the buffer, out-of-bounds read at the offset three below the end
(and in the last three 32-bit offsets, where the check wraps), range error elsewhere. -/
theorem C18_uint_outcome_partial (buffer : Bytes) (offset : Nat) (big : Bool)
    (hlen : 3 ≤ buffer.length) (hlen' : buffer.length ≤ 2 ^ 32 - 4) (hoff : offset < 2 ^ 32) :
    (offset + 4 ≤ buffer.length → (ReadUInt buffer buffer.length offset big).isOk = true) ∧
    (offset + 3 = buffer.length ∨ 2 ^ 32 - 3 ≤ offset →
      ReadUInt buffer buffer.length offset big = .ub .oobRead) ∧
    (buffer.length < offset + 3 → offset < 2 ^ 32 - 3 →
      ReadUInt buffer buffer.length offset big = .throw .rangeError) := by
  refine ⟨?_, ?_, ?_⟩
  · intro h
    have hat := at_of_le (content := buffer) (off := offset) (n := 4) h
    have hl : ((buffer.drop offset).take 4).length = 4 := by
      rw [List.length_take, List.length_drop]; omega
    match hd : (buffer.drop offset).take 4, hl with
    | [a, b, c, d], _ =>
      rw [hd] at hat
      rw [C19_uint_reversed_partial buffer _ offset big a b c d hat h (by omega)]; rfl
  · intro h
    unfold ReadUInt
    rcases h with h | h
    · have e1 : u32 (offset + 1) = offset + 1 := by unfold u32; omega
      have e2 : u32 (offset + 2) = offset + 2 := by unfold u32; omega
      have e3 : u32 (offset + 3) = offset + 3 := by unfold u32; omega
      rw [e1, e2, e3, if_neg (by omega), rd_ge (i := offset + 3) (by omega),
        rd_lt (i := offset + 2) (by omega), rd_lt (i := offset + 1) (by omega),
        rd_lt (i := offset) (by omega)]
      rfl
    · rw [if_neg (by unfold u32; omega), rd_ge (i := offset) (by omega)]; rfl
  · intro h hne
    unfold ReadUInt
    have e : u32 (offset + 3) = offset + 3 := by unfold u32; omega
    rw [e, if_pos (by omega)]

example : (3 ≤ ([1, 2, 3, 4, 5] : Bytes).length) ∧
    ReadUInt [1, 2, 3, 4, 5] 5 1 = .ok 0x02030405 ∧ ReadUInt [1, 2, 3, 4, 5] 5 2 = .ub .oobRead ∧
    ReadUInt [1, 2, 3, 4, 5] 5 3 = .throw .rangeError := by decide

/-- C18 is false of the 4-byte read. -/
theorem C18_uint_unsafe :
    ¬ ∀ (buffer : Bytes) (max offset : Nat) (big : Bool), max ≤ buffer.length → max < 2 ^ 32 →
      offset < 2 ^ 32 → (ReadUInt buffer max offset big).isUB = false := by
  intro h
  exact absurd (h [1, 2, 3] 3 0 false (by decide) (by decide) (by decide)) (by decide)

/-! ## C20 strings -/

/-- C20 when `offset + strLength` does not wrap: exactly the bytes, or a range error; the boundary is
exact. Missing: sums of 2^32 and more, for which it is false (`C20_string_unsafe`). -/
theorem C20_string_partial (buffer : Bytes) (max offset len : Nat) (hmax : max = buffer.length)
    (hno : offset + len < 2 ^ 32) :
    (∀ s, s.length = len → (At buffer offset s ↔ ReadString buffer max offset len = .ok s)) ∧
    (max < offset + len ↔ ReadString buffer max offset len = .throw .rangeError) ∧
    (ReadString buffer max offset len).isUB = false := by
  have e : u32 (offset + len) = offset + len := by unfold u32; omega
  unfold ReadString
  rw [e]
  by_cases h : offset + len > max
  · rw [if_pos h]
    refine ⟨fun s hs => ⟨fun hat => ?_, fun h' => nomatch h'⟩, ⟨fun _ => rfl, fun _ => h⟩, rfl⟩
    have := hat.length_le; omega
  · rw [if_neg h, rdRange_ok (by omega)]
    refine ⟨fun s hs => ⟨fun hat => ?_, fun h' => ?_⟩, ⟨fun h' => absurd h' h, fun h' => nomatch h'⟩, rfl⟩
    · subst hs; rw [hat.eq_take_drop]
    · injection h' with h'
      rw [← h']; exact at_of_le (by omega)

example : ReadString b!"abcdef" 6 2 4 = .ok b!"cdef" ∧ ReadString b!"abcdef" 6 2 5 = .throw .rangeError := by
  decide

/-- C20 is false of the code: a length close to 2^32 passes the check after wrap-around. -/
theorem C20_string_unsafe :
    ¬ ∀ (buffer : Bytes) (max offset len : Nat), max = buffer.length → max < 2 ^ 32 → offset < 2 ^ 32 →
      len < 2 ^ 32 → (ReadString buffer max offset len).isUB = false := by
  intro h
  exact absurd (h [1, 2] 2 1 4294967295 (by decide) (by decide) (by decide) (by decide)) (by decide)

/-! ## C21 eight-byte reads -/

/-- C21: the 64-bit read returns the little-endian value of the eight bytes or raises a range error, for
every 32-bit offset. -/
theorem C21_ulonglong (buffer : Bytes) (max offset : Nat) (hmax : max = buffer.length)
    (hoff : offset < 2 ^ 32) :
    (∀ s, s.length = 8 → At buffer offset s → ReadULongLong buffer max offset = .ok (littleEndian s)) ∧
    (max < offset + 8 ↔ ReadULongLong buffer max offset = .throw .rangeError) ∧
    (ReadULongLong buffer max offset).isUB = false := by
  have e : u64 (offset + 8) = offset + 8 := by unfold u64; omega
  unfold ReadULongLong
  rw [e]
  by_cases h : offset + 8 > max
  · rw [if_pos h]
    refine ⟨fun s hs hat => ?_, ⟨fun _ => rfl, fun _ => h⟩, rfl⟩
    have := hat.length_le; omega
  · rw [if_neg h, rdRange_ok (by omega)]
    refine ⟨fun s hs hat => ?_, ⟨fun h' => absurd h' h, fun h' => nomatch h'⟩, rfl⟩
    have := hat.eq_take_drop
    rw [hs] at this
    rw [this, Res.bind_ok, leVal_eq]

/-- C21: the native `unsigned long` read, at either width. -/
theorem C21_ulong (abi : Abi) (habi : abi = Abi.linux ∨ abi = Abi.windows) (buffer : Bytes)
    (max offset : Nat) (hmax : max = buffer.length) (hoff : offset < 2 ^ 32) :
    (∀ s, s.length = abi.ulongBytes → At buffer offset s →
      ReadULong abi buffer max offset = .ok (littleEndian s)) ∧
    (max < offset + abi.ulongBytes ↔ ReadULong abi buffer max offset = .throw .rangeError) ∧
    (ReadULong abi buffer max offset).isUB = false := by
  have hw : abi.ulongBytes ≤ 8 := by rcases habi with h | h <;> rw [h] <;> decide
  have e : u64 (offset + abi.ulongBytes) = offset + abi.ulongBytes := by unfold u64; omega
  unfold ReadULong
  rw [e]
  by_cases h : offset + abi.ulongBytes > max
  · rw [if_pos h]
    refine ⟨fun s hs hat => ?_, ⟨fun _ => rfl, fun _ => h⟩, rfl⟩
    have := hat.length_le; omega
  · rw [if_neg h, rdRange_ok (by omega)]
    refine ⟨fun s hs hat => ?_, ⟨fun h' => absurd h' h, fun h' => nomatch h'⟩, rfl⟩
    have := hat.eq_take_drop
    rw [hs] at this
    rw [this, Res.bind_ok, leVal_eq]

example : At [7, 1, 2, 3, 4, 5, 6, 7, 8] 1 [1, 2, 3, 4, 5, 6, 7, 8] ∧
    ReadULongLong [7, 1, 2, 3, 4, 5, 6, 7, 8] 9 1 = .ok 0x0807060504030201 ∧
    ReadULong Abi.windows [7, 1, 2, 3, 4, 5, 6, 7, 8] 9 1 = .ok 0x04030201 :=
  ⟨⟨[7], [], rfl, rfl⟩, by decide, by decide⟩

/-! ## C22 GUIDs -/

theorem verifyGuidsLoop_false (a b : Bytes) (n i : Nat) : VerifyGuidsLoop a b n i false = .ok false := by
  cases n <;> rfl

theorem verifyGuidsLoop_spec (a b : Bytes) (n i : Nat) (ha : i + n ≤ a.length) (hb : i + n ≤ b.length) :
    VerifyGuidsLoop a b n i true = .ok (decide ((a.drop i).take n = (b.drop i).take n)) := by
  induction n generalizing i with
  | zero => simp [VerifyGuidsLoop]
  | succ n ih =>
    rw [VerifyGuidsLoop, if_pos rfl, rd_lt (by omega), rd_lt (by omega)]
    simp only [Res.bind_ok, Bool.true_and]
    rw [List.drop_eq_getElem_cons (i := i) (l := a) (by omega),
      List.drop_eq_getElem_cons (i := i) (l := b) (by omega), List.take_succ_cons, List.take_succ_cons]
    by_cases h : a[i]'(by omega) = b[i]'(by omega)
    · have : (a[i]'(by omega) == b[i]'(by omega)) = true := by simp [h]
      rw [this, ih (i + 1) (by omega) (by omega)]
      simp [h]
    · have : (a[i]'(by omega) == b[i]'(by omega)) = false := by simp [h]
      rw [this, verifyGuidsLoop_false]
      simp [h]

/-- C22: two 16-byte identifiers compare equal exactly when all sixteen bytes agree; nothing outside the
sixteen bytes is read (the arrays may be exactly 16 bytes long). -/
theorem C22_guid_equality (a b : Bytes) (ha : 16 ≤ a.length) (hb : 16 ≤ b.length) :
    VerifyGuids a b = .ok (decide (a.take 16 = b.take 16)) := by
  have := verifyGuidsLoop_spec a b 16 0 (by omega) (by omega)
  simpa [VerifyGuids] using this

/-- C22 for arrays of exactly 16 bytes: equality. -/
theorem C22_guid_equality_exact (a b : Bytes) (ha : a.length = 16) (hb : b.length = 16) :
    VerifyGuids a b = .ok true ↔ a = b := by
  rw [C22_guid_equality a b (by omega) (by omega), List.take_of_length_le (by omega),
    List.take_of_length_le (by omega)]
  simp

example : VerifyGuids (List.replicate 16 7) (List.replicate 15 7 ++ [8]) = .ok false := by decide

/-! ## C23 bit fields -/

/-- C23: bit `j` of the extracted number is bit `k - 1 + j` of the byte for `j < n`, and 0 for the rest; so
the number is `num / 2^(k-1) mod 2^n`. -/
theorem C23_extract_bits (num : UInt8) (n k : Nat) (hn : n ≤ 30) (hk1 : 1 ≤ k) (hk2 : k ≤ 32) :
    ∃ r, ExtractBits num n k = .ok r ∧ r.toNat = num.toNat / 2 ^ (k - 1) % 2 ^ n ∧
      ∀ j, r.toNat.testBit j = (decide (j < n) && num.toNat.testBit (k - 1 + j)) := by
  have hlt : num.toNat / 2 ^ (k - 1) % 2 ^ n < 256 := by
    have h1 := Nat.mod_le (num.toNat / 2 ^ (k - 1)) (2 ^ n)
    have h2 := Nat.div_le_self num.toNat (2 ^ (k - 1))
    have h3 := num.toNat_lt
    omega
  have e : (2 ^ n - 1) &&& (num.toNat >>> (k - 1)) = num.toNat / 2 ^ (k - 1) % 2 ^ n := by
    rw [Nat.and_comm, Nat.and_two_pow_sub_one_eq_mod, Nat.shiftRight_eq_div_pow]
  refine ⟨UInt8.ofNat ((2 ^ n - 1) &&& (num.toNat >>> (k - 1))), ?_, ?_, ?_⟩
  · unfold ExtractBits
    rw [if_neg (by omega), if_neg (by omega)]
  · rw [e]; simp; omega
  · intro j
    have : (UInt8.ofNat ((2 ^ n - 1) &&& (num.toNat >>> (k - 1)))).toNat =
        num.toNat / 2 ^ (k - 1) % 2 ^ n := by rw [e]; simp; omega
    rw [this, Nat.testBit_mod_two_pow, Nat.testBit_div_two_pow, Nat.add_comm]

example : ExtractBits 0xB4 3 3 = .ok 5 := by decide

/-- C23: position 0 is outside the domain (negative shift). -/
theorem C23_position_zero (num : UInt8) (n : Nat) : (ExtractBits num n 0).isUB = true := by
  unfold ExtractBits
  split
  · rfl
  · simp [Res.isUB]

end Fileid.Props
