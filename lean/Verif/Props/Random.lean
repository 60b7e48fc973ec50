import Verif.Model.Random

/-!
# C116: random strings, and the names of temporary files
-/

namespace Fileid.Props

open Common

theorem randomLoop_spec (draw : Nat → Nat) (charset : Bytes) (hc : charset ≠ []) (n : Nat) : ∀ i,
    ∃ s, randomLoop draw charset n i = .ok s ∧ s.length = n ∧ ∀ k, k < n → s[k]? = charset[draw (i + k) % charset.length]? := by
  have hpos : 0 < charset.length := List.length_pos_iff.2 hc
  induction n with
  | zero => exact fun i => ⟨[], rfl, rfl, fun k hk => by omega⟩
  | succ n ih =>
    intro i
    obtain ⟨s, h1, h2, h3⟩ := ih (i + 1)
    have hlt := Nat.mod_lt (draw i) hpos
    have hg := List.getElem?_eq_getElem hlt
    refine ⟨charset[draw i % charset.length] :: s, ?_, by rw [List.length_cons, h2], fun k hk => ?_⟩
    · unfold randomLoop
      rw [hg]
      dsimp only
      rw [h1]
      rfl
    · cases k with
      | zero => exact hg.symm
      | succ k =>
        rw [List.getElem?_cons_succ, h3 k (by omega)]
        congr 2
        congr 1
        omega

/-- C116: whatever random numbers there are, a random string has the length asked for and only characters of the set asked for. -/
theorem C116_random (draw : Nat → Nat) (charset : Bytes) (hc : charset ≠ []) (hl : charset.length ≤ 2 ^ 31) (length : Nat) :
    ∃ s, random_string draw charset length = .ok s ∧ s.length = length ∧ ∀ c ∈ s, c ∈ charset := by
  obtain ⟨s, h1, h2, h3⟩ := randomLoop_spec draw charset hc length 0
  refine ⟨s, ?_, h2, fun c hm => ?_⟩
  · unfold random_string
    rw [if_neg (fun h => h.elim hc (by omega)), h1]
  · obtain ⟨k, hk, rfl⟩ := List.mem_iff_getElem.1 hm
    have := h3 k (by omega)
    rw [List.getElem?_eq_getElem hk] at this
    exact List.mem_of_getElem? this.symm

/-- C116: every string of these characters can come out; none is favoured by how the characters are taken. -/
theorem C116_every (charset s : Bytes) (hl : charset.length ≤ 2 ^ 31) (hne : charset ≠ []) (hs : ∀ c ∈ s, c ∈ charset) :
    ∃ draw, (∀ i, draw i < charset.length) ∧ random_string draw charset s.length = .ok s := by
  have hpos : 0 < charset.length := List.length_pos_iff.2 hne
  have hex : ∀ k, ∃ j, j < charset.length ∧ (k < s.length → charset[j]? = s[k]?) := by
    intro k
    by_cases hk : k < s.length
    · obtain ⟨j, hj, he⟩ := List.mem_iff_getElem.1 (hs s[k] (List.getElem_mem hk))
      exact ⟨j, hj, fun _ => by rw [List.getElem?_eq_getElem hj, he, List.getElem?_eq_getElem hk]⟩
    · exact ⟨0, hpos, fun h => absurd h hk⟩
  refine ⟨fun k => (hex k).choose, fun k => (hex k).choose_spec.1, ?_⟩
  obtain ⟨s', h1, h2, h3⟩ := randomLoop_spec (fun k => (hex k).choose) charset hne s.length 0
  unfold random_string
  rw [if_neg (fun h => h.elim hne (by omega)), h1]
  congr 1
  apply List.ext_getElem? fun k => ?_
  by_cases hk : k < s.length
  · rw [h3 k hk, Nat.zero_add, Nat.mod_eq_of_lt (hex k).choose_spec.1]
    exact (hex k).choose_spec.2 hk
  · rw [List.getElem?_eq_none (by omega), List.getElem?_eq_none (by omega)]

/-- C116, what is not defined: a random string of no characters, whatever its length. -/
theorem C116_empty_wrong (draw : Nat → Nat) (length : Nat) : random_string draw [] length = .ub .oobRead := rfl

/-- A digit or a letter of ASCII. -/
def LetterOrDigit (c : UInt8) : Prop := (48 ≤ c ∧ c ≤ 57) ∨ (65 ≤ c ∧ c ≤ 90) ∨ (97 ≤ c ∧ c ≤ 122)

theorem nameChars_mem (c : UInt8) : c ∈ nameChars ↔ LetterOrDigit c := by
  have h : ∀ n, n < 256 → (UInt8.ofNat n ∈ nameChars ↔ (48 ≤ UInt8.ofNat n ∧ UInt8.ofNat n ≤ 57) ∨
      (65 ≤ UInt8.ofNat n ∧ UInt8.ofNat n ≤ 90) ∨ (97 ≤ UInt8.ofNat n ∧ UInt8.ofNat n ≤ 122)) := by decide +kernel
  have := h c.toNat c.toNat_lt
  rwa [UInt8.ofNat_toNat] at this

/-- C116: the name of a temporary file is one in the directory for temporary files, of 24 letters and digits. -/
theorem C116_name (draw : Nat → Nat) (dir : Bytes) (sep : UInt8) :
    ∃ name, temp_filename draw dir sep = .ok (if dir = [] ∨ dir.getLast? = some sep then dir ++ name else dir ++ [sep] ++ name) ∧
      name.length = 24 ∧ ∀ c ∈ name, LetterOrDigit c := by
  obtain ⟨s, h1, h2, h3⟩ := C116_random draw nameChars (by decide) (by decide) 24
  refine ⟨s, ?_, h2, fun c hc => (nameChars_mem c).1 (h3 c hc)⟩
  unfold temp_filename
  rw [h1]
  show Res.ok _ = _
  congr 1
  by_cases hd : dir = [] ∨ dir.getLast? = some sep
  · rw [if_pos hd, if_pos hd.symm]
  · rw [if_neg hd, if_neg (fun h => hd h.symm)]

/-- C116: no name is favoured: there are 62^24 ways to draw 24 numbers below 62, and different ones give different names. -/
theorem C116_even (draw draw' : Nat → Nat) (dir : Bytes) (sep : UInt8) (h : ∀ i, draw i < 62) (h' : ∀ i, draw' i < 62)
    (he : temp_filename draw dir sep = temp_filename draw' dir sep) : ∀ i, i < 24 → draw i = draw' i := by
  intro i hi
  obtain ⟨s, h1, h2, h3⟩ := randomLoop_spec draw nameChars (by decide) 24 0
  obtain ⟨s', h1', h2', h3'⟩ := randomLoop_spec draw' nameChars (by decide) 24 0
  have hs : s = s' := by
    unfold temp_filename random_string at he
    rw [if_neg (by decide), if_neg (by decide), h1, h1'] at he
    have he' := Res.ok.inj he
    split at he'
    · exact List.append_cancel_left he'
    · exact List.append_cancel_left he'
  have h4 := h3 i hi
  rw [hs, h3' i hi, Nat.zero_add, show nameChars.length = 62 from by decide, Nat.mod_eq_of_lt (h i), Nat.mod_eq_of_lt (h' i)] at h4
  have hinj : ∀ a, a < 62 → ∀ b, b < 62 → nameChars[a]? = nameChars[b]? → b = a := by decide +kernel
  exact hinj _ (h' i) _ (h i) h4

/-- C116, what is false: that the name is new. Nothing is asked of the directory: for every file in it whose name is of this kind there are
random numbers with which it is the "temporary" file, which is then overwritten and removed. -/
theorem C116_new_false (dir name : Bytes) (sep : UInt8) (hdir : dir ≠ [] ∧ dir.getLast? ≠ some sep) (hn : name.length = 24)
    (hc : ∀ c ∈ name, LetterOrDigit c) : ∃ draw, temp_filename draw dir sep = .ok (dir ++ [sep] ++ name) := by
  obtain ⟨draw, _, h⟩ := C116_every nameChars name (by decide) (by decide) (fun c h => (nameChars_mem c).2 (hc c h))
  refine ⟨draw, ?_⟩
  unfold temp_filename
  rw [← hn, h]
  show Res.ok _ = _
  rw [if_neg (fun h => h.elim hdir.2 hdir.1)]

-- The hypotheses are met.
example : nameChars ≠ [] ∧ nameChars.length ≤ 2 ^ 31 ∧ ∀ i : Nat, (fun j => j % 62) i < 62 :=
  ⟨by decide, by decide, fun i => Nat.mod_lt i (by decide)⟩

example : ∃ draw, temp_filename draw b!"/tmp" 47 = .ok b!"/tmp/0123456789abcdefghijABCD" :=
  C116_new_false b!"/tmp" b!"0123456789abcdefghijABCD" 47 (by decide) (by decide) (fun c h => (nameChars_mem c).1 (by revert c; decide))

end Fileid.Props
