import Verif.Spec.Text

/-! Lemmas about number formatting. -/

namespace Fileid

theorem digitsAux_append (b f n : Nat) (acc : List Nat) :
    digitsAux b f n acc = digitsAux b f n [] ++ acc := by
  induction f generalizing n acc with
  | zero => simp [digitsAux]
  | succ f ih =>
    unfold digitsAux
    split
    · simp
    · rw [ih, ih (n / b) [n % b]]; simp

theorem digitsAux_fuel {b : Nat} (hb : 2 ≤ b) (f g n : Nat) (hf : n < f) (hg : n < g) :
    digitsAux b f n [] = digitsAux b g n [] := by
  induction n using Nat.strongRecOn generalizing f g with
  | _ n ih =>
    obtain ⟨f, rfl⟩ : ∃ k, f = k + 1 := ⟨f - 1, by omega⟩
    obtain ⟨g, rfl⟩ : ∃ k, g = k + 1 := ⟨g - 1, by omega⟩
    unfold digitsAux
    split
    · rfl
    · have hlt : n / b < n := Nat.div_lt_self (by omega) (by omega)
      rw [digitsAux_append b f, digitsAux_append b g, ih (n / b) hlt f g (by omega) (by omega)]

theorem digitsOf_lt {b n : Nat} (h : n < b) : digitsOf b n = [n] := by
  simp [digitsOf, digitsAux, h]

theorem digitsOf_ge {b n : Nat} (hb : 2 ≤ b) (h : ¬ n < b) :
    digitsOf b n = digitsOf b (n / b) ++ [n % b] := by
  have hlt : n / b < n := Nat.div_lt_self (by omega) (by omega)
  rw [digitsOf, digitsAux, if_neg h, digitsAux_append, digitsOf,
    digitsAux_fuel hb n (n / b + 1) (n / b) hlt (by omega)]

theorem digitsOf_digit_lt {b : Nat} (hb : 2 ≤ b) (n d : Nat) (h : d ∈ digitsOf b n) : d < b := by
  induction n using Nat.strongRecOn with
  | _ n ih =>
    by_cases hn : n < b
    · rw [digitsOf_lt hn] at h; simp at h; omega
    · rw [digitsOf_ge hb hn] at h
      rcases List.mem_append.1 h with h | h
      · exact ih _ (Nat.div_lt_self (by omega) (by omega)) h
      · simp at h; subst h; exact Nat.mod_lt _ (by omega)

theorem digitsOf_ne_nil (b n : Nat) (hb : 2 ≤ b) : digitsOf b n ≠ [] := by
  by_cases hn : n < b
  · simp [digitsOf_lt hn]
  · simp [digitsOf_ge hb hn]

theorem digitsOf_length_le {b : Nat} (hb : 2 ≤ b) (k n : Nat) (hk : 0 < k) (h : n < b ^ k) :
    (digitsOf b n).length ≤ k := by
  induction n using Nat.strongRecOn generalizing k with
  | _ n ih =>
    by_cases hn : n < b
    · simp [digitsOf_lt hn]; omega
    · rw [digitsOf_ge hb hn]
      obtain ⟨k, rfl⟩ : ∃ j, k = j + 1 := ⟨k - 1, by omega⟩
      have hk0 : 0 < k := by
        rcases Nat.eq_zero_or_pos k with rfl | h'
        · simp at h; omega
        · exact h'
      have hlt : n / b < n := Nat.div_lt_self (by omega) (by omega)
      have := ih (n / b) hlt k hk0 (Nat.div_lt_of_lt_mul (by rw [Nat.pow_succ, Nat.mul_comm] at h; exact h))
      simp; omega

open Spec

theorem digitVal_lower {d : Nat} (h : d < 16) : digitVal (digitLower d) = some d := by
  have : ∀ d : Fin 16, digitVal (digitLower d) = some d.val := by decide
  exact this ⟨d, h⟩

theorem digitVal_upper {d : Nat} (h : d < 16) : digitVal (digitUpper d) = some d := by
  have : ∀ d : Fin 16, digitVal (digitUpper d) = some d.val := by decide
  exact this ⟨d, h⟩

theorem readDigits_append (b a : Nat) (s t : Bytes) :
    readDigits b a (s ++ t) = (readDigits b a s).bind fun v => readDigits b v t := by
  induction s generalizing a with
  | nil => simp [readDigits]
  | cons c cs ih =>
    simp only [List.cons_append, readDigits]
    split
    · split
      · rw [ih]
      · simp
    · simp

theorem readDigits_zeros (b a k : Nat) (hb : 0 < b) (t : Bytes) (ha : a = 0) :
    readDigits b a (List.replicate k 48 ++ t) = readDigits b 0 t := by
  subst ha
  induction k with
  | zero => simp
  | succ k ih =>
    have : digitVal 48 = some 0 := by decide
    simp only [List.replicate_succ, List.cons_append, readDigits, this, if_pos hb]
    simpa using ih

theorem readDigits_digits {b : Nat} (hb : 2 ≤ b) (hb16 : b ≤ 16) (dig : Nat → UInt8)
    (hdig : ∀ d, d < 16 → digitVal (dig d) = some d) (n : Nat) :
    readDigits b 0 ((digitsOf b n).map dig) = some n := by
  induction n using Nat.strongRecOn with
  | _ n ih =>
    by_cases hn : n < b
    · have h2 : n < 16 := by omega
      simp [digitsOf_lt hn, readDigits, hdig n h2, hn]
    · have hlt : n / b < n := Nat.div_lt_self (by omega) (by omega)
      have hm : n % b < b := Nat.mod_lt _ (by omega)
      rw [digitsOf_ge hb hn, List.map_append, readDigits_append, ih _ hlt]
      have h2 : n % b < 16 := by omega
      simp only [Option.bind_some, List.map_cons, List.map_nil, readDigits, hdig _ h2, if_pos hm]
      congr 1
      have := Nat.div_add_mod n b
      rw [Nat.mul_comm] at this; exact this

theorem readDigits_dec (n : Nat) : readDigits 10 0 (dec n) = some n :=
  readDigits_digits (by omega) (by omega) _ (fun _ h => digitVal_lower h) n

theorem readDigits_hexLower (n : Nat) : readDigits 16 0 (hexLower n) = some n :=
  readDigits_digits (by omega) (by omega) _ (fun _ h => digitVal_lower h) n

theorem readDigits_hexUpper (n : Nat) : readDigits 16 0 (hexUpper n) = some n :=
  readDigits_digits (by omega) (by omega) _ (fun _ h => digitVal_upper h) n

theorem dec_ne_nil (n : Nat) : dec n ≠ [] := by
  simp [dec, digitsOf_ne_nil 10 n (by omega)]

theorem hexLower_ne_nil (n : Nat) : hexLower n ≠ [] := by
  simp [hexLower, digitsOf_ne_nil 16 n (by omega)]

theorem hexUpper_ne_nil (n : Nat) : hexUpper n ≠ [] := by
  simp [hexUpper, digitsOf_ne_nil 16 n (by omega)]

theorem dec_length_le (k n : Nat) (hk : 0 < k) (h : n < 10 ^ k) : (dec n).length ≤ k := by
  simpa [dec] using digitsOf_length_le (by omega) k n hk h

theorem hexLower_length_le (k n : Nat) (hk : 0 < k) (h : n < 16 ^ k) : (hexLower n).length ≤ k := by
  simpa [hexLower] using digitsOf_length_le (by omega) k n hk h

theorem hexUpper_length_le (k n : Nat) (hk : 0 < k) (h : n < 16 ^ k) : (hexUpper n).length ≤ k := by
  simpa [hexUpper] using digitsOf_length_le (by omega) k n hk h

theorem setw0_length (w : Nat) (s : Bytes) (h : s.length ≤ w) : (setw0 w s).length = w := by
  simp [setw0]; omega

theorem setw0_ne_nil (w : Nat) (s : Bytes) (h : s ≠ []) : setw0 w s ≠ [] := by
  simp [setw0, h]

theorem readDigits_setw0 (b w : Nat) (hb : 0 < b) (s : Bytes) :
    readDigits b 0 (setw0 w s) = readDigits b 0 s := readDigits_zeros b 0 _ hb s rfl

theorem readNumeral_setw0_dec (w n : Nat) : readNumeral 10 (setw0 w (dec n)) = some n := by
  rw [readNumeral, if_neg (setw0_ne_nil _ _ (dec_ne_nil n)), readDigits_setw0 10 w (by omega), readDigits_dec]

theorem readNumeral_dec (n : Nat) : readNumeral 10 (dec n) = some n := by
  rw [readNumeral, if_neg (dec_ne_nil n), readDigits_dec]

theorem readNumeral_setw0_hexLower (w n : Nat) : readNumeral 16 (setw0 w (hexLower n)) = some n := by
  rw [readNumeral, if_neg (setw0_ne_nil _ _ (hexLower_ne_nil n)), readDigits_setw0 16 w (by omega), readDigits_hexLower]

theorem readNumeral_setw0_hexUpper (w n : Nat) : readNumeral 16 (setw0 w (hexUpper n)) = some n := by
  rw [readNumeral, if_neg (setw0_ne_nil _ _ (hexUpper_ne_nil n)), readDigits_setw0 16 w (by omega), readDigits_hexUpper]

theorem isLowerHex_digitLower {d : Nat} (h : d < 16) : isLowerHex (digitLower d) = true := by
  have : ∀ d : Fin 16, isLowerHex (digitLower d) = true := by decide
  exact this ⟨d, h⟩

theorem hexLower_chars (n : Nat) : ∀ c ∈ hexLower n, isLowerHex c = true := by
  intro c hc
  simp only [hexLower, List.mem_map] at hc
  obtain ⟨d, hd, rfl⟩ := hc
  exact isLowerHex_digitLower (digitsOf_digit_lt (by omega) n d hd)

/-- Characters of a decimal numeral are `0`-`9`. -/
theorem dec_chars (n : Nat) : ∀ c ∈ dec n, 48 ≤ c ∧ c ≤ 57 := by
  intro c hc
  simp only [dec, List.mem_map] at hc
  obtain ⟨d, hd, rfl⟩ := hc
  have hd := digitsOf_digit_lt (by omega) n d hd
  have : ∀ d : Fin 10, 48 ≤ digitLower d ∧ digitLower d ≤ 57 := by decide
  exact this ⟨d, hd⟩

theorem setw0_chars (w : Nat) (s : Bytes) (P : UInt8 → Prop) (h0 : P 48) (h : ∀ c ∈ s, P c) :
    ∀ c ∈ setw0 w s, P c := by
  intro c hc
  simp only [setw0, List.mem_append, List.mem_replicate] at hc
  rcases hc with ⟨_, rfl⟩ | hc
  · exact h0
  · exact h c hc

end Fileid
