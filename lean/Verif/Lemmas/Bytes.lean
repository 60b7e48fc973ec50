import Verif.Spec.Bytes

/-!
# Lemmas on byte access and integer encodings
-/

namespace Fileid

open Spec

theorem Spec.At.getElem? {content : Bytes} {off : Nat} {bs : Bytes} (h : At content off bs) (i : Nat)
    (hi : i < bs.length) : content[off + i]? = bs[i]? := by
  obtain ⟨pre, post, rfl, rfl⟩ := h
  rw [List.append_assoc, List.getElem?_append_right (by omega)]
  rw [show pre.length + i - pre.length = i by omega, List.getElem?_append_left hi]

theorem Spec.At.length_le {content : Bytes} {off : Nat} {bs : Bytes} (h : At content off bs) :
    off + bs.length ≤ content.length := by
  obtain ⟨pre, post, rfl, rfl⟩ := h
  simp only [List.length_append]; omega

theorem at_of_le {content : Bytes} {off n : Nat} (h : off + n ≤ content.length) :
    At content off ((content.drop off).take n) := by
  refine ⟨content.take off, content.drop (off + n), ?_, ?_⟩
  · rw [List.append_assoc]
    conv => lhs; rw [← List.take_append_drop off content]
    congr 1
    rw [← List.drop_drop]
    exact (List.take_append_drop n _).symm
  · rw [List.length_take]; omega

theorem Spec.At.eq_take_drop {content : Bytes} {off : Nat} {bs : Bytes} (h : At content off bs) :
    (content.drop off).take bs.length = bs := by
  obtain ⟨pre, post, rfl, rfl⟩ := h
  simp

theorem rdRange_of_at {content : Bytes} {off n : Nat} {bs : Bytes} (h : At content off bs)
    (hn : n = bs.length) : rdRange content off n = .ok bs := by
  subst hn
  rw [rdRange, if_pos h.length_le, h.eq_take_drop]

theorem rd_lt {b : Bytes} {i : Nat} (h : i < b.length) : rd b i = .ok b[i] := by
  simp [rd, h]

theorem rd_ge {b : Bytes} {i : Nat} (h : b.length ≤ i) : rd b i = .ub .oobRead := by
  simp [rd, h]

theorem rdRange_ok {b : Bytes} {i n : Nat} (h : i + n ≤ b.length) :
    rdRange b i n = .ok ((b.drop i).take n) := by rw [rdRange, if_pos h]

theorem rdRange_ub {b : Bytes} {i n : Nat} (h : b.length < i + n) :
    rdRange b i n = .ub .oobRead := by rw [rdRange, if_neg (by omega)]

theorem foldl_bigEndian (bs : Bytes) (n : Nat) :
    bs.foldl (fun n b => n * 256 + b.toNat) n = n * 256 ^ bs.length + bigEndian bs := by
  unfold bigEndian
  induction bs generalizing n with
  | nil => simp
  | cons b bs ih =>
    rw [List.foldl_cons, ih, List.foldl_cons, ih (0 * 256 + b.toNat), List.length_cons, Nat.pow_succ,
      Nat.add_mul, Nat.add_mul, Nat.mul_assoc, Nat.mul_comm 256]
    omega

theorem littleEndian_cons (b : UInt8) (bs : Bytes) :
    littleEndian (b :: bs) = b.toNat + 256 * littleEndian bs := by
  unfold littleEndian
  rw [List.reverse_cons]
  conv => lhs; unfold bigEndian
  rw [List.foldl_append]
  simp only [List.foldl_cons, List.foldl_nil]
  have : bigEndian bs.reverse = bs.reverse.foldl (fun n b => n * 256 + b.toNat) 0 := rfl
  rw [← this]; omega

theorem littleEndian_nil : littleEndian [] = 0 := rfl

theorem leVal_eq (bs : Bytes) : leVal bs = littleEndian bs := by
  induction bs with
  | nil => rfl
  | cons b bs ih => rw [leVal, ih, littleEndian_cons]

theorem leVal_lt (bs : Bytes) : leVal bs < 256 ^ bs.length := by
  induction bs with
  | nil => simp [leVal]
  | cons b bs ih =>
    rw [leVal, List.length_cons, Nat.pow_succ]
    have := b.toNat_lt
    omega

theorem leBytes_length (k n : Nat) : (leBytes k n).length = k := by
  induction k generalizing n with
  | zero => rfl
  | succ k ih => simp [leBytes, ih]

theorem leVal_leBytes (k n : Nat) : leVal (leBytes k n) = n % 256 ^ k := by
  induction k generalizing n with
  | zero => simp [leBytes, leVal, Nat.mod_one]
  | succ k ih =>
    have hm : (UInt8.ofNat (n % 256)).toNat = n % 256 := by simp
    rw [leBytes, leVal, ih, hm, Nat.pow_succ, Nat.mul_comm (256 ^ k) 256, Nat.mod_mul]

theorem leBytes_leVal (bs : Bytes) : leBytes bs.length (leVal bs) = bs := by
  induction bs with
  | nil => rfl
  | cons b bs ih =>
    have hb := b.toNat_lt
    have h1 : (b.toNat + 256 * leVal bs) % 256 = b.toNat := by omega
    have h2 : (b.toNat + 256 * leVal bs) / 256 = leVal bs := by omega
    rw [List.length_cons, leBytes, leVal, h1, h2, ih]
    simp

theorem or16 (a b : UInt8) : (a.toNat <<< 8) ||| b.toNat = a.toNat * 256 + b.toNat := by
  have hb := b.toNat_lt
  rw [← Nat.shiftLeft_add_eq_or_of_lt (by omega), Nat.shiftLeft_eq]

theorem or32 (a b c d : UInt8) :
    (a.toNat <<< 24) ||| (b.toNat <<< 16) ||| (c.toNat <<< 8) ||| d.toNat =
      ((a.toNat * 256 + b.toNat) * 256 + c.toNat) * 256 + d.toNat := by
  have hb := b.toNat_lt
  have hc := c.toNat_lt
  have hd := d.toNat_lt
  rw [Nat.or_assoc, Nat.or_assoc]
  rw [← Nat.shiftLeft_add_eq_or_of_lt (a := c.toNat) (i := 8) (b := d.toNat) (by omega)]
  rw [← Nat.shiftLeft_add_eq_or_of_lt (a := b.toNat) (i := 16) (by rw [Nat.shiftLeft_eq]; omega)]
  rw [← Nat.shiftLeft_add_eq_or_of_lt (a := a.toNat) (i := 24) (by simp only [Nat.shiftLeft_eq]; omega)]
  simp only [Nat.shiftLeft_eq]
  omega

theorem toSigned_eq (w n : Nat) (h : n < 2 ^ w) : toSigned w n = twosComplement w n := by
  unfold toSigned twosComplement
  rw [Nat.mod_eq_of_lt h]
  split <;> simp

end Fileid
