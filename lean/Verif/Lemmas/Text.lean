import Verif.Model.Common
import Verif.Lemmas.Digits

/-! Lemmas about the text functions of common.hpp. -/

namespace Fileid

open Common Spec

theorem foldl_append_flatten {α : Type} (f : α → Bytes) (l : List α) (acc : Bytes) :
    l.foldl (fun r x => r ++ f x) acc = acc ++ (l.map f).flatten := by
  induction l generalizing acc with
  | nil => simp
  | cons x xs ih => simp [ih]

theorem bin2hex_eq (b : Bytes) : bin2hex b = (b.map fun ch => setw0 2 (hexLower ch.toNat)).flatten := by
  unfold bin2hex; rw [foldl_append_flatten]; simp

theorem bin2hex_cons (c : UInt8) (b : Bytes) :
    bin2hex (c :: b) = setw0 2 (hexLower c.toNat) ++ bin2hex b := by simp [bin2hex_eq]

theorem XmlEscape_eq (s : Bytes) : XmlEscape s = (s.map xmlEscapeChar).flatten := by
  unfold XmlEscape; rw [foldl_append_flatten]; simp

theorem XmlEscape_cons (c : UInt8) (s : Bytes) : XmlEscape (c :: s) = xmlEscapeChar c ++ XmlEscape s := by
  simp [XmlEscape_eq]

theorem length_two {s : Bytes} (h : s.length = 2) : ∃ a b, s = [a, b] := by
  match s, h with
  | [a, b], _ => exact ⟨a, b, rfl⟩

theorem length_four {s : Bytes} (h : s.length = 4) : ∃ a b c d, s = [a, b, c, d] := by
  match s, h with
  | [a, b, c, d], _ => exact ⟨a, b, c, d, rfl⟩

theorem hex2_length (c : UInt8) : (setw0 2 (hexLower c.toNat)).length = 2 :=
  setw0_length _ _ (hexLower_length_le 2 _ (by omega) (by have := c.toNat_lt; omega))

/-- `bin2hex` of one byte reads back. -/
theorem unhex_hex2 (c : UInt8) (r : Bytes) :
    unhex (setw0 2 (hexLower c.toNat) ++ r) = (unhex r).map (c :: ·) := by
  obtain ⟨x, y, hxy⟩ := length_two (hex2_length c)
  have hread := readNumeral_setw0_hexLower 2 c.toNat
  rw [hxy] at hread ⊢
  simp only [readNumeral, readDigits] at hread
  simp only [List.cons_append, List.nil_append, unhex]
  cases hx : digitVal x with
  | none => simp [hx] at hread
  | some a =>
    cases hy : digitVal y with
    | none => simp [hx, hy] at hread
    | some b =>
      have h16 : ∀ z v, digitVal z = some v → v < 16 := by
        intro z v hz
        unfold digitVal at hz
        split at hz
        · simp at hz; omega
        · split at hz
          · simp at hz; omega
          · split at hz
            · simp at hz; omega
            · simp at hz
      have ha := h16 _ _ hx
      have hb := h16 _ _ hy
      simp [hx, hy, ha, hb] at hread
      cases hr : unhex r with
      | none => simp
      | some r' =>
        have hc : UInt8.ofNat (16 * a + b) = c := by
          rw [Nat.mul_comm, hread]; exact UInt8.ofNat_toNat
        simp only [hc, Option.map_some]

theorem jsonBody_u {a b c d : UInt8} {n : Nat} (h : readNumeral 16 [a, b, c, d] = some n) (r : Bytes) :
    jsonBody (92 :: 117 :: a :: b :: c :: d :: r) = (jsonBody r).map (n :: ·) := by
  rw [jsonBody, h]
  cases jsonBody r <;> rfl

theorem jsonBody_lit {c : UInt8} (h1 : 32 ≤ c) (h2 : c ≠ 34) (h3 : c ≠ 92) (h4 : c ≤ 127) (r : Bytes) :
    jsonBody (c :: r) = (jsonBody r).map (c.toNat :: ·) := by
  rw [jsonBody]
  · have h1' : ¬ c < 32 := by simpa using h1
    have h4' : ¬ c > 127 := by simpa using h4
    simp only [h1', h2, h3, h4', or_self, if_false]
    cases jsonBody r <;> rfl
  all_goals (intros; simp_all)

theorem jsonBody_esc {e : UInt8} {n : Nat} (he : e ≠ 117)
    (hv : (if e = 34 then some 34 else if e = 92 then some 92 else if e = 47 then some 47
      else if e = 98 then some 8 else if e = 102 then some 12 else if e = 110 then some 10
      else if e = 114 then some 13 else if e = 116 then some 9 else none) = some n) (r : Bytes) :
    jsonBody (92 :: e :: r) = (jsonBody r).map (n :: ·) := by
  rw [jsonBody]
  · simp only [hv]
    cases jsonBody r <;> rfl
  · intros; simp_all

theorem jsonBody_escapeChar (c : UInt8) (r : Bytes) :
    jsonBody (jsonEscapeChar c ++ r) = (jsonBody r).map (c.toNat :: ·) := by
  unfold jsonEscapeChar
  repeat' split
  all_goals try (subst_vars; exact jsonBody_esc (by decide) (by decide) r)
  · have hlen : (setw0 4 (hexUpper c.toNat)).length = 4 :=
      setw0_length _ _ (hexUpper_length_le 4 _ (by omega) (by have := c.toNat_lt; omega))
    obtain ⟨x, y, z, w, h4⟩ := length_four hlen
    have hread := readNumeral_setw0_hexUpper 4 c.toNat
    rw [h4] at hread ⊢
    simpa using jsonBody_u hread r
  · rename_i h1 h2 _ _ _ _ _ h8
    simp only [iscntrl, Bool.or_eq_true, decide_eq_true_eq, not_or, beq_iff_eq] at h8
    simpa using jsonBody_lit (by simpa using h8.1.1) h1 h2 (by simpa using h8.2) r

theorem jsonEscapeChar_printable (c : UInt8) : ∀ x ∈ jsonEscapeChar c, 32 ≤ x ∧ x ≤ 126 := by
  have : ∀ c : Fin 256, ∀ x ∈ jsonEscapeChar (UInt8.ofNat c.val), 32 ≤ x ∧ x ≤ 126 := by decide +kernel
  have h := this ⟨c.toNat, c.toNat_lt⟩
  simpa using h

theorem xmlEscapeChar_safe (c : UInt8) :
    ∀ x ∈ xmlEscapeChar c, 32 ≤ x ∧ x ≤ 126 ∧ x ≠ 60 ∧ x ≠ 62 ∧ x ≠ 34 ∧ x ≠ 39 := by
  have : ∀ c : Fin 256, ∀ x ∈ xmlEscapeChar (UInt8.ofNat c.val),
      32 ≤ x ∧ x ≤ 126 ∧ x ≠ 60 ∧ x ≠ 62 ∧ x ≠ 34 ∧ x ≠ 39 := by decide +kernel
  have h := this ⟨c.toNat, c.toNat_lt⟩
  simpa using h

theorem xmlGo_digits (acc ds r : Bytes) (h : ∀ c ∈ ds, c ≠ 59) :
    xmlGo (some acc) (ds ++ r) = xmlGo (some (acc ++ ds)) r := by
  induction ds generalizing acc with
  | nil => simp
  | cons d ds ih =>
    have hd : d ≠ 59 := h d (by simp)
    rw [List.cons_append, xmlGo, if_neg hd, ih _ (fun c hc => h c (by simp [hc]))]
    simp

theorem xmlGo_ref {ds : Bytes} {n : Nat} (h : ∀ c ∈ ds, c ≠ 59) (hn : readNumeral 10 ds = some n) (r : Bytes) :
    xmlGo none (38 :: 35 :: (ds ++ 59 :: r)) = (xmlGo none r).map (n :: ·) := by
  rw [xmlGo, xmlGo_digits _ _ _ h, xmlGo, if_pos rfl]
  simp only [List.nil_append, hn]
  cases xmlGo none r <;> rfl

theorem xmlGo_lit {c : UInt8} (h : c ≠ 38 ∧ c ≠ 60 ∧ c ≠ 62 ∧ c ≠ 34 ∧ c ≠ 39) (r : Bytes) :
    xmlGo none (c :: r) = (xmlGo none r).map (c.toNat :: ·) := by
  rw [xmlGo]
  · simp only [h.1, h.2.1, h.2.2.1, h.2.2.2.1, h.2.2.2.2, or_self, if_false]
    cases xmlGo none r <;> rfl
  · intro r' hc _
    exact absurd hc h.1

/-- The code point a reader of `XmlEscape`'s output sees for the byte `c`. -/
def xmlSeen (c : UInt8) : Nat := if c = 62 then 60 else if c = 60 then 62 else c.toNat

theorem xmlGo_escapeChar (c : UInt8) (r : Bytes) :
    xmlGo none (xmlEscapeChar c ++ r) = (xmlGo none r).map (xmlSeen c :: ·) := by
  have lit : ∀ (ds : Bytes) (n : Nat), (∀ c ∈ ds, c ≠ 59) → readNumeral 10 ds = some n →
      xmlGo none ((38 :: 35 :: (ds ++ [59])) ++ r) = (xmlGo none r).map (n :: ·) := by
    intro ds n h hn
    have := xmlGo_ref h hn r
    simpa using this
  unfold xmlEscapeChar
  repeat' split
  · subst_vars; exact lit b!"34" 34 (by decide) (by decide)
  · subst_vars; exact lit b!"38" 38 (by decide) (by decide)
  · subst_vars; exact lit b!"39" 39 (by decide) (by decide)
  · subst_vars; exact lit b!"60" 60 (by decide) (by decide)
  · subst_vars; exact lit b!"62" 62 (by decide) (by decide)
  · rename_i h4 h5 _
    have hs : xmlSeen c = c.toNat := by simp [xmlSeen, h4, h5]
    have h59 : ∀ x ∈ setw0 2 (dec c.toNat), x ≠ 59 := by
      apply setw0_chars
      · decide
      · intro x hx hx2
        have := (dec_chars c.toNat x hx).2
        subst hx2
        exact absurd this (by decide)
    have := lit (setw0 2 (dec c.toNat)) c.toNat h59 (readNumeral_setw0_dec 2 c.toNat)
    rw [hs]
    simpa using this
  · rename_i h1 h2 h3 h4 h5 _
    have hs : xmlSeen c = c.toNat := by simp [xmlSeen, h4, h5]
    rw [hs]
    simpa using xmlGo_lit ⟨h2, h5, h4, h1, h3⟩ r

/-! ### trimming -/

theorem findFirstNotOf_spec (chars s : Bytes) (i : Nat) :
    (findFirstNotOf chars s i = npos ∧ ∀ c ∈ s, c ∈ chars) ∨
    ∃ pre x post, s = pre ++ x :: post ∧ (∀ c ∈ pre, c ∈ chars) ∧ x ∉ chars ∧
      findFirstNotOf chars s i = i + pre.length := by
  induction s generalizing i with
  | nil => left; simp [findFirstNotOf]
  | cons c cs ih =>
    by_cases hc : c ∈ chars
    · have hc' : chars.contains c = true := by simpa using hc
      rcases ih (i + 1) with ⟨h1, h2⟩ | ⟨pre, x, post, h1, h2, h3, h4⟩
      · left
        refine ⟨by simpa [findFirstNotOf, hc] using h1, ?_⟩
        intro d hd
        rcases List.mem_cons.1 hd with rfl | hd
        · exact hc
        · exact h2 d hd
      · right
        refine ⟨c :: pre, x, post, by simp [h1], ?_, h3, ?_⟩
        · intro d hd
          rcases List.mem_cons.1 hd with rfl | hd
          · exact hc
          · exact h2 d hd
        · have : findFirstNotOf chars (c :: cs) i = findFirstNotOf chars cs (i + 1) := by
            simp [findFirstNotOf, hc]
          rw [this, h4]; simp; omega
    · right
      exact ⟨[], c, cs, rfl, by simp, hc, by simp [findFirstNotOf, hc]⟩

theorem findLastNotOf_spec (chars s : Bytes) (i last : Nat) :
    (findLastNotOf chars s i last = last ∧ ∀ c ∈ s, c ∈ chars) ∨
    ∃ pre x post, s = pre ++ x :: post ∧ (∀ c ∈ post, c ∈ chars) ∧ x ∉ chars ∧
      findLastNotOf chars s i last = i + pre.length := by
  induction s generalizing i last with
  | nil => left; simp [findLastNotOf]
  | cons c cs ih =>
    rcases ih (i + 1) (if chars.contains c then last else i) with ⟨h1, h2⟩ | ⟨pre, x, post, h1, h2, h3, h4⟩
    · by_cases hc : c ∈ chars
      · left
        refine ⟨by simpa [findLastNotOf, hc] using h1, ?_⟩
        intro d hd
        rcases List.mem_cons.1 hd with rfl | hd
        · exact hc
        · exact h2 d hd
      · right
        refine ⟨[], c, cs, rfl, h2, hc, by simpa [findLastNotOf, hc] using h1⟩
    · right
      refine ⟨c :: pre, x, post, by simp [h1], h2, h3, ?_⟩
      rw [findLastNotOf, h4]; simp; omega

/-! ### splitting -/

theorem splitFirst_append {c : UInt8} {a : Bytes} (h : ∀ x ∈ a, x ≠ c) (b : Bytes) :
    splitFirst c (a ++ c :: b) = some (a, b) := by
  induction a with
  | nil => simp [splitFirst]
  | cons x xs ih =>
    have hx : x ≠ c := h x (by simp)
    rw [List.cons_append, splitFirst, if_neg hx, ih (fun y hy => h y (by simp [hy]))]

theorem splitFirst_none {c : UInt8} {a : Bytes} (h : ∀ x ∈ a, x ≠ c) : splitFirst c a = none := by
  induction a with
  | nil => rfl
  | cons x xs ih =>
    have hx : x ≠ c := h x (by simp)
    rw [splitFirst, if_neg hx, ih (fun y hy => h y (by simp [hy]))]

theorem setw0_dec_ne (w n : Nat) (c : UInt8) (h : c < 48 ∨ 57 < c) : ∀ x ∈ setw0 w (dec n), x ≠ c := by
  apply setw0_chars
  · rcases h with h | h
    · intro h'; subst h'; exact absurd h (by decide)
    · intro h'; subst h'; exact absurd h (by decide)
  · intro x hx hxc
    have := dec_chars n x hx
    subst hxc
    have h1 : 48 ≤ x.toNat := this.1
    have h2 : x.toNat ≤ 57 := this.2
    rcases h with h | h
    · have : x.toNat < 48 := h
      omega
    · have : 57 < x.toNat := h
      omega

theorem dec_ne (n : Nat) (c : UInt8) (h : c < 48 ∨ 57 < c) : ∀ x ∈ dec n, x ≠ c := by
  have := setw0_dec_ne 0 n c h
  simpa [setw0] using this

theorem setw0_length_ge (w : Nat) (s : Bytes) : w ≤ (setw0 w s).length := by
  simp [setw0]; omega

theorem readFixed_setw0_dec (w n : Nat) (hw : 0 < w) (h : n < 10 ^ w) :
    readFixed w (setw0 w (dec n)) = some n := by
  rw [readFixed, if_pos (setw0_length _ _ (dec_length_le w n hw h)), readNumeral_setw0_dec]

end Fileid
