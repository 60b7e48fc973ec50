import Verif.Model.FileId
import Verif.Lemmas.Bytes

/-!
# Lemmas on signature matching and the read-ahead window
-/

namespace Fileid

open Common Spec Magic

theorem checkMagicLoop_false (a e : Bytes) (off n i : Nat) : checkMagicLoop a e off n i false = .ok false := by
  cases n <;> rfl

theorem checkMagicLoop_spec (a e : Bytes) (off n j : Nat) (ha : off + j + n ≤ a.length)
    (he : j + n ≤ e.length) :
    checkMagicLoop a e off n (off + j) true =
      .ok (decide ((a.drop (off + j)).take n = (e.drop j).take n)) := by
  induction n generalizing j with
  | zero => simp [checkMagicLoop]
  | succ n ih =>
    rw [checkMagicLoop, if_pos rfl, rd_lt (by omega), show off + j - off = j by omega, rd_lt (by omega)]
    simp only [Res.bind_ok, Bool.true_and]
    rw [List.drop_eq_getElem_cons (i := off + j) (l := a) (by omega),
      List.drop_eq_getElem_cons (i := j) (l := e) (by omega), List.take_succ_cons, List.take_succ_cons]
    by_cases h : a[off + j]'(by omega) = e[j]'(by omega)
    · have : (a[off + j]'(by omega) == e[j]'(by omega)) = true := by simp [h]
      rw [this, show off + j + 1 = off + (j + 1) by omega, ih (j + 1) (by omega) (by omega)]
      simp [h]
    · have : (a[off + j]'(by omega) == e[j]'(by omega)) = false := by simp [h]
      rw [this, checkMagicLoop_false]
      simp [h]

theorem at_iff (a e : Bytes) (off : Nat) :
    At a off e ↔ off + e.length ≤ a.length ∧ (a.drop off).take e.length = e := by
  constructor
  · intro h; exact ⟨h.length_le, h.eq_take_drop⟩
  · rintro ⟨h1, h2⟩
    have := at_of_le h1
    rwa [h2] at this

instance (a e : Bytes) (off : Nat) : Decidable (At a off e) := decidable_of_iff _ (at_iff a e off).symm

theorem checkMagic_eq (actual expected : Bytes) (offset : Nat) (ha : actual.length < 2 ^ 63)
    (hoff : offset < 2 ^ 32) :
    checkMagic actual actual.length expected expected.length offset =
      .ok (decide (At actual offset expected)) := by
  unfold checkMagic
  simp only []
  by_cases hlt : expected.length > actual.length
  · rw [if_pos (Or.inr hlt)]
    have : ¬ At actual offset expected := fun h => by have := h.length_le; omega
    simp [this]
  · simp only [if_neg hlt]
    have e : u64 (offset + expected.length) = offset + expected.length := by unfold u64; omega
    rw [e]
    by_cases h2 : offset + expected.length > actual.length
    · rw [if_pos (Or.inl h2)]
      have : ¬ At actual offset expected := fun h => by have := h.length_le; omega
      simp [this]
    · rw [if_neg (by omega)]
      have := checkMagicLoop_spec actual expected offset expected.length 0 (by omega) (by omega)
      rw [Nat.add_zero] at this
      rw [this]
      congr 1
      rw [decide_eq_decide, at_iff, List.drop_zero, List.take_length]
      exact ⟨fun h => ⟨by omega, h⟩, fun h => h.2⟩

theorem at_take_iff (c e : Bytes) (off m : Nat) (h : off + e.length ≤ m) :
    At (c.take m) off e ↔ At c off e := by
  rw [at_iff, at_iff, List.length_take, List.drop_take, List.take_take]
  have h1 : min e.length (m - off) = e.length := by omega
  rw [h1]
  have : (off + e.length ≤ min m c.length) ↔ off + e.length ≤ c.length := by omega
  rw [this]

/-! ### Rounding up to a power of two -/

theorem smear_step (v k m : Nat) (h1 : v < 2 ^ k) (h2 : ∀ i < k, k ≤ i + m → v.testBit i = true) :
    (v ||| v >>> m) < 2 ^ k ∧ ∀ i < k, k ≤ i + (m + m) → (v ||| v >>> m).testBit i = true := by
  constructor
  · apply Nat.or_lt_two_pow h1
    rw [Nat.shiftRight_eq_div_pow]
    exact Nat.lt_of_le_of_lt (Nat.div_le_self _ _) h1
  · intro i hi hm
    rw [Nat.testBit_or, Nat.testBit_shiftRight]
    by_cases hc : k ≤ i + m
    · rw [h2 i hi hc]; rfl
    · rw [h2 (m + i) (by omega) (by omega)]; simp

theorem eq_two_pow_sub_one (v k : Nat) (h1 : v < 2 ^ k) (h2 : ∀ i < k, v.testBit i = true) :
    v = 2 ^ k - 1 := by
  apply Nat.eq_of_testBit_eq
  intro i
  rw [Nat.testBit_two_pow_sub_one]
  by_cases hi : i < k
  · simp [h2 i hi, hi]
  · simp only [hi, decide_false]
    apply Nat.testBit_lt_two_pow
    exact Nat.lt_of_lt_of_le h1 (Nat.pow_le_pow_right (by omega) (by omega))

/-- The bit-smearing sequence turns a number with `k ≤ 32` significant bits into `2^k - 1`. -/
theorem smear (v k : Nat) (h1 : v < 2 ^ k) (htop : ∀ i, k = i + 1 → v.testBit i = true) (hk : k ≤ 32) :
    (let v := v ||| (v >>> 1)
     let v := v ||| (v >>> 2)
     let v := v ||| (v >>> 4)
     let v := v ||| (v >>> 8)
     v ||| (v >>> 16)) = 2 ^ k - 1 := by
  simp only []
  obtain ⟨a1, a2⟩ := smear_step v k 1 h1 (fun i hi hm => htop i (by omega))
  obtain ⟨b1, b2⟩ := smear_step _ k 2 a1 (by simpa using a2)
  obtain ⟨c1, c2⟩ := smear_step _ k 4 b1 (by simpa using b2)
  obtain ⟨d1, d2⟩ := smear_step _ k 8 c1 (by simpa using c2)
  obtain ⟨e1, e2⟩ := smear_step _ k 16 d1 (by simpa using d2)
  exact eq_two_pow_sub_one _ k e1 (fun i hi => e2 i hi (by omega))

/-- Every number below 2^32 has a bit length `k ≤ 32`. -/
theorem bitLength (v : Nat) (h : v < 2 ^ 32) :
    ∃ k, k ≤ 32 ∧ v < 2 ^ k ∧ (∀ i, k = i + 1 → v.testBit i = true ∧ 2 ^ i ≤ v) := by
  by_cases hv : v = 0
  · exact ⟨0, by omega, by simp [hv], fun i hi => by omega⟩
  · have hle := Nat.log2_self_le hv
    have hlt : v < 2 ^ (v.log2 + 1) := Nat.lt_log2_self
    refine ⟨v.log2 + 1, ?_, hlt, ?_⟩
    · have : 2 ^ v.log2 < 2 ^ 32 := Nat.lt_of_le_of_lt hle h
      have := (Nat.pow_lt_pow_iff_right (by omega : 1 < 2)).1 this
      omega
    · intro i hi
      obtain rfl : i = v.log2 := by omega
      refine ⟨?_, hle⟩
      rw [Nat.testBit_eq_decide_div_mod_eq]
      have : v / 2 ^ v.log2 = 1 := by
        apply Nat.div_eq_of_lt_le
        · omega
        · rw [Nat.pow_succ] at hlt; omega
      simp [this]

theorem roundUp_eq (x : Nat) (h1 : 1 ≤ x) (h2 : x ≤ 2 ^ 32) :
    ∃ k, k ≤ 32 ∧ x ≤ 2 ^ k ∧ (∀ i, k = i + 1 → 2 ^ i < x) ∧ roundUpPowerOfTwo x = u32 (2 ^ k) := by
  have hs : sub32 x 1 = x - 1 := by unfold sub32; omega
  obtain ⟨k, hk, hlt, htop⟩ := bitLength (x - 1) (by omega)
  refine ⟨k, hk, by omega, fun i hi => by have := (htop i hi).2; omega, ?_⟩
  have := smear (x - 1) k hlt (fun i hi => (htop i hi).1) hk
  unfold roundUpPowerOfTwo
  simp only [hs] at this ⊢
  rw [this]
  rw [Nat.sub_add_cancel (Nat.two_pow_pos k)]

theorem foldl_max_spec (list : List MagicInfo) (a : Nat)
    (hend : ∀ mi ∈ list, mi.size + mi.offset < 2 ^ 32) :
    a ≤ list.foldl (fun ans mi => if u32 (mi.size + mi.offset) > ans then u32 (mi.size + mi.offset) else ans) a ∧
    (∀ mi ∈ list, mi.size + mi.offset ≤
      list.foldl (fun ans mi => if u32 (mi.size + mi.offset) > ans then u32 (mi.size + mi.offset) else ans) a) ∧
    (list.foldl (fun ans mi => if u32 (mi.size + mi.offset) > ans then u32 (mi.size + mi.offset) else ans) a = a ∨
      ∃ mi ∈ list, mi.size + mi.offset =
      list.foldl (fun ans mi => if u32 (mi.size + mi.offset) > ans then u32 (mi.size + mi.offset) else ans) a) := by
  induction list generalizing a with
  | nil => simp
  | cons x xs ih =>
    have hx : u32 (x.size + x.offset) = x.size + x.offset := by
      have := hend x (by simp); unfold u32; omega
    rw [List.foldl_cons]
    obtain ⟨g1, g2, g3⟩ := ih (if u32 (x.size + x.offset) > a then u32 (x.size + x.offset) else a)
      (fun mi hmi => hend mi (by simp [hmi]))
    rw [hx] at g1 g2 g3 ⊢
    have h1 : a ≤ if x.size + x.offset > a then x.size + x.offset else a := by split <;> omega
    have h2 : x.size + x.offset ≤ if x.size + x.offset > a then x.size + x.offset else a := by
      split <;> omega
    refine ⟨by omega, ?_, ?_⟩
    · intro mi hmi
      rcases List.mem_cons.1 hmi with rfl | hmi
      · omega
      · exact g2 mi hmi
    · rcases g3 with g3 | ⟨mi, hmi, g3⟩
      · by_cases hgt : x.size + x.offset > a
        · right; exact ⟨x, by simp, by rw [g3, if_pos hgt]⟩
        · left; rw [g3, if_neg hgt]
      · right; exact ⟨mi, by simp [hmi], g3⟩

end Fileid
