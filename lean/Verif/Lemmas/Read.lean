import Verif.Lemmas.Formats
import Verif.Lemmas.Bytes

/-!
# Lemmas about the readers, by what is stored
-/

namespace Fileid

open Common Spec

/-! ## Readers by what is stored -/

theorem num2 {b : Bytes} {off v : Nat} (h : Num b off 2 v) :
    ∃ (h0 : off < b.length) (h1 : off + 1 < b.length), v = b[off].toNat + 256 * b[off + 1].toNat := by
  have hl := h.length_le
  refine ⟨by omega, by omega, ?_⟩
  have e := h.eq
  rw [e, List.drop_eq_getElem_cons (by omega : off < b.length),
    List.drop_eq_getElem_cons (by omega : off + 1 < b.length)]
  simp only [List.take_succ_cons, List.take_zero, leVal]
  omega

theorem num4 {b : Bytes} {off v : Nat} (h : Num b off 4 v) :
    ∃ (h0 : off < b.length) (h1 : off + 1 < b.length) (h2 : off + 2 < b.length) (h3 : off + 3 < b.length),
      v = b[off].toNat + 256 * (b[off + 1].toNat + 256 * (b[off + 2].toNat + 256 * b[off + 3].toNat)) := by
  have hl := h.length_le
  refine ⟨by omega, by omega, by omega, by omega, ?_⟩
  have e := h.eq
  rw [e, List.drop_eq_getElem_cons (by omega : off < b.length),
    List.drop_eq_getElem_cons (by omega : off + 1 < b.length),
    List.drop_eq_getElem_cons (by omega : off + 1 + 1 < b.length),
    List.drop_eq_getElem_cons (by omega : off + 1 + 1 + 1 < b.length)]
  simp only [List.take_succ_cons, List.take_zero, leVal, Nat.mul_zero, Nat.add_zero]

theorem readUShort_num {b : Bytes} {max off v : Nat} (h : Num b off 2 v) (h32 : off + 1 < 2 ^ 32)
    (hm : off + 1 ≤ max) : ReadUShort b max off = .ok v := by
  obtain ⟨h0, h1, e⟩ := num2 h
  have e1 : u32 (off + 1) = off + 1 := by unfold u32; omega
  unfold ReadUShort
  rw [e1, if_neg (by omega)]
  simp only [Bool.false_eq_true, ↓reduceIte, rd_lt h1, rd_lt h0, Res.bind_ok, or16]
  have := b[off].toNat_lt
  have := b[off + 1].toNat_lt
  congr 1
  unfold u16
  omega

theorem readUInt_num {b : Bytes} {max off v : Nat} (h : Num b off 4 v) (h32 : off + 3 < 2 ^ 32)
    (hm : off + 3 ≤ max) : ReadUInt b max off true = .ok v := by
  obtain ⟨h0, h1, h2, h3, e⟩ := num4 h
  have e1 : u32 (off + 1) = off + 1 := by unfold u32; omega
  have e2 : u32 (off + 2) = off + 2 := by unfold u32; omega
  have e3 : u32 (off + 3) = off + 3 := by unfold u32; omega
  unfold ReadUInt
  rw [e1, e2, e3, if_neg (by omega)]
  simp only [↓reduceIte, rd_lt h1, rd_lt h0, rd_lt h2, rd_lt h3, Res.bind_ok, or32]
  have := b[off].toNat_lt
  have := b[off + 1].toNat_lt
  have := b[off + 2].toNat_lt
  have := b[off + 3].toNat_lt
  congr 1
  unfold u32
  omega

theorem rd_num {b : Bytes} {off v : Nat} (h : Num b off 1 v) : ∃ u, rd b off = .ok u ∧ u.toNat = v := by
  have hl := h.length_le
  have e := h.eq
  rw [List.drop_eq_getElem_cons (by omega : off < b.length)] at e
  exact ⟨b[off], rd_lt (by omega), by simp only [List.take_succ_cons, List.take_zero, leVal] at e; omega⟩

/-! ## Sequencing -/

theorem bind_eq_ok {α β : Type} {x : Res α} {f : α → Res β} {b : β} (h : (x >>= f) = .ok b) :
    ∃ a, x = .ok a ∧ f a = .ok b := by
  cases x with
  | ok a => exact ⟨a, rfl, h⟩
  | _ => cases h

theorem bind_ne_fuel {α β : Type} {x : Res α} {f : α → Res β} (h : x ≠ .fuel) (h' : ∀ a, f a ≠ .fuel) :
    (x >>= f) ≠ .fuel := by
  cases x with
  | ok a => exact h' a
  | fuel => exact absurd rfl h
  | _ => intro e; cases e

theorem rd_ne_fuel (b : Bytes) (i : Nat) : rd b i ≠ .fuel := by
  unfold rd; split <;> simp

theorem rdRange_ne_fuel (b : Bytes) (i n : Nat) : rdRange b i n ≠ .fuel := by
  unfold rdRange; split <;> simp

theorem ReadUShort_ne_fuel (b : Bytes) (max off : Nat) (e : Bool) : ReadUShort b max off e ≠ .fuel := by
  unfold ReadUShort
  split
  · simp
  · split <;>
      exact bind_ne_fuel (rd_ne_fuel _ _) fun _ => bind_ne_fuel (rd_ne_fuel _ _) fun _ => by simp

theorem ReadSShort_ne_fuel (b : Bytes) (max off : Nat) (e : Bool) : ReadSShort b max off e ≠ .fuel := by
  unfold ReadSShort
  split
  · simp
  · split <;>
      exact bind_ne_fuel (rd_ne_fuel _ _) fun _ => bind_ne_fuel (rd_ne_fuel _ _) fun _ => by simp

theorem ReadUInt_ne_fuel (b : Bytes) (max off : Nat) (e : Bool) : ReadUInt b max off e ≠ .fuel := by
  unfold ReadUInt
  split
  · simp
  · exact bind_ne_fuel (rd_ne_fuel _ _) fun _ => bind_ne_fuel (rd_ne_fuel _ _) fun _ =>
      bind_ne_fuel (rd_ne_fuel _ _) fun _ => bind_ne_fuel (rd_ne_fuel _ _) fun _ => by split <;> simp

theorem ExtractBits_ne_fuel (n : UInt8) (a b : Nat) : ExtractBits n a b ≠ .fuel := by
  unfold ExtractBits
  split
  · simp
  · split <;> simp

theorem ite_ne_fuel {α : Type} {c : Prop} [Decidable c] {x y : Res α} (h : x ≠ .fuel) (h' : y ≠ .fuel) :
    (if c then x else y) ≠ .fuel := by
  split
  · exact h
  · exact h'

theorem ok_ne_fuel {α : Type} (a : α) : (Res.ok a : Res α) ≠ .fuel := by simp
theorem ub_ne_fuel {α : Type} (u : UB) : (Res.ub u : Res α) ≠ .fuel := by simp

/-! ## Parts of a byte sequence -/

theorem at_cons {c : Bytes} {o : Nat} {x : UInt8} {xs : Bytes} (h : At c o (x :: xs)) :
    rd c o = .ok x ∧ At c (o + 1) xs := by
  constructor
  · have e := h.getElem? 0 (by simp)
    have hl := h.length_le
    simp only [List.length_cons] at hl
    rw [rd_lt (by omega)]
    simp only [Nat.add_zero, List.getElem?_cons_zero] at e
    rw [List.getElem?_eq_getElem (by omega)] at e
    injection e with e
    rw [e]
  · obtain ⟨pre, post, rfl, rfl⟩ := h
    exact ⟨pre ++ [x], post, by simp, by simp⟩

theorem at_append {c : Bytes} {o : Nat} {xs ys : Bytes} (h : At c o (xs ++ ys)) :
    At c o xs ∧ At c (o + xs.length) ys := by
  obtain ⟨pre, post, rfl, rfl⟩ := h
  exact ⟨⟨pre, ys ++ post, by simp, rfl⟩, ⟨pre ++ xs, post, by simp, by simp⟩⟩

theorem littleEndian_lt (d : Bytes) : littleEndian d < 256 ^ d.length := by
  rw [← leVal_eq]; exact leVal_lt d

end Fileid
