import Verif.Lemmas.Text

/-!
# Properties of the text functions (C08 - C16)
-/

namespace Fileid.Props

open Common Spec

/-! ## C08 hex dump -/

/-- C08: the hex dump decodes to the original bytes. -/
theorem C08_hexdump_roundtrip (b : Bytes) : unhex (bin2hex b) = some b := by
  induction b with
  | nil => rfl
  | cons c b ih => rw [bin2hex_cons, unhex_hex2, ih]; rfl

/-- C08: two characters per byte. -/
theorem C08_hexdump_length (b : Bytes) : (bin2hex b).length = 2 * b.length := by
  induction b with
  | nil => rfl
  | cons c b ih => rw [bin2hex_cons, List.length_append, ih, hex2_length, List.length_cons]; omega

/-- C08: only the characters `0`-`9` and `a`-`f` occur. -/
theorem C08_hexdump_digits (b : Bytes) : ∀ c ∈ bin2hex b, isLowerHex c = true := by
  induction b with
  | nil => intro c hc; simp [bin2hex] at hc
  | cons x b ih =>
    intro c hc
    rw [bin2hex_cons] at hc
    rcases List.mem_append.1 hc with hc | hc
    · exact setw0_chars 2 _ (fun c => isLowerHex c = true) (by decide) (hexLower_chars _) c hc
    · exact ih c hc

/-- C08: different byte sequences have different dumps. -/
theorem C08_hexdump_injective (a b : Bytes) (h : bin2hex a = bin2hex b) : a = b := by
  have ha := C08_hexdump_roundtrip a
  rw [h, C08_hexdump_roundtrip b] at ha
  exact (Option.some.inj ha).symm

example : bin2hex [0, 10, 255] = b!"000aff" := by decide

/-! ## C09 fixed-width hex numbers -/

/-- C09: the text of a `w`-byte unsigned number is `0x` followed by exactly `2w` characters that read back
as the number. -/
theorem C09_int_to_hex (w i : Nat) (hw : 0 < w) (hi : i < 256 ^ w) :
    ∃ ds, intToHex w i = b!"0x" ++ ds ∧ ds.length = 2 * w ∧ (∀ c ∈ ds, isLowerHex c = true) ∧
      readNumeral 16 ds = some i := by
  refine ⟨setw0 (w * 2) (hexLower i), rfl, ?_, ?_, readNumeral_setw0_hexLower _ _⟩
  · rw [setw0_length _ _ (hexLower_length_le (w * 2) i (by omega) ?_), Nat.mul_comm]
    rw [Nat.mul_comm, Nat.pow_mul]; exact hi
  · exact setw0_chars _ _ (fun c => isLowerHex c = true) (by decide) (hexLower_chars _)

/-- C09: different numbers of the same width give different texts. -/
theorem C09_int_to_hex_injective (w i j : Nat) (h : intToHex w i = intToHex w j) : i = j := by
  have h' : setw0 (w * 2) (hexLower i) = setw0 (w * 2) (hexLower j) := by
    simpa [intToHex] using h
  have hi := readNumeral_setw0_hexLower (w * 2) i
  rw [h', readNumeral_setw0_hexLower] at hi
  exact (Option.some.inj hi).symm

example : intToHex 4 0xfeedface = b!"0xfeedface" ∧ (0xfeedface : Nat) < 256 ^ 4 := by decide

/-! ## C10 JSON escaping -/

/-- C10, what the code does for every byte string: the escaped text is a legal JSON string body, and a JSON
reader recovers exactly the bytes before the first NUL. -/
theorem C10_json_escape_reads_prefix (s : Bytes) :
    jsonBody (JsonEscape s) = some ((s.takeWhile (· ≠ 0)).map UInt8.toNat) := by
  induction s with
  | nil => rfl
  | cons c s ih =>
    unfold JsonEscape
    by_cases hc : c = 0
    · simp [hc, jsonBody]
    · rw [if_neg hc, jsonBody_escapeChar, ih]
      simp [hc]

/-- C10 (safety): the escaped text is printable ASCII for every input. -/
theorem C10_json_escape_printable (s : Bytes) : ∀ c ∈ JsonEscape s, 32 ≤ c ∧ c ≤ 126 := by
  induction s with
  | nil => intro c hc; simp [JsonEscape] at hc
  | cons x s ih =>
    intro c hc
    unfold JsonEscape at hc
    split at hc
    · simp at hc
    · rcases List.mem_append.1 hc with hc | hc
      · exact jsonEscapeChar_printable x c hc
      · exact ih c hc

/-- C10 for NUL-free strings: lossless. Missing for the full property: strings with NUL bytes, for which it
is false (`C10_json_escape_not_lossless`). -/
theorem C10_json_escape_lossless_partial (s : Bytes) (h : 0 ∉ s) :
    jsonBody (JsonEscape s) = some (s.map UInt8.toNat) := by
  rw [C10_json_escape_reads_prefix]
  congr 2
  induction s with
  | nil => rfl
  | cons c s ih =>
    have hc : c ≠ 0 := fun h0 => h (by simp [h0])
    rw [List.takeWhile_cons_of_pos (by simpa using hc), ih (fun h0 => h (by simp [h0]))]

example : (0 : UInt8) ∉ b!"a\"b\\\n\x7f" := by decide

/-- C10 is false of the code: everything from the first NUL byte on is dropped. -/
theorem C10_json_escape_not_lossless :
    ¬ ∀ s : Bytes, jsonBody (JsonEscape s) = some (s.map UInt8.toNat) := by
  intro h
  exact absurd (h [65, 0, 66]) (by decide)

/-- C10, consequence for NUL-free strings: escaping is injective. -/
theorem C10_json_escape_injective_partial (s t : Bytes) (hs : 0 ∉ s) (ht : 0 ∉ t)
    (h : JsonEscape s = JsonEscape t) : s = t := by
  have h1 := C10_json_escape_lossless_partial s hs
  rw [h, C10_json_escape_lossless_partial t ht] at h1
  have h2 := Option.some.inj h1
  exact ((List.map_inj_right (fun _ _ h => UInt8.toNat_inj.1 h)).1 h2).symm

/-! ## C11, C12 XML escaping -/

/-- C11: the escaped text is printable ASCII without `<`, `>` and quotes. -/
theorem C11_xml_escape_safe (s : Bytes) :
    ∀ c ∈ XmlEscape s, 32 ≤ c ∧ c ≤ 126 ∧ c ≠ 60 ∧ c ≠ 62 ∧ c ≠ 34 ∧ c ≠ 39 := by
  induction s with
  | nil => intro c hc; simp [XmlEscape] at hc
  | cons x s ih =>
    intro c hc
    rw [XmlEscape_cons] at hc
    rcases List.mem_append.1 hc with hc | hc
    · exact xmlEscapeChar_safe x c hc
    · exact ih c hc

/-- C12, what the code does for every byte string: the references resolve, but `<` and `>` come back
exchanged. -/
theorem C12_xml_escape_reads_swapped (s : Bytes) :
    xmlText (XmlEscape s) =
      some (s.map fun c => if c = 62 then 60 else if c = 60 then 62 else c.toNat) := by
  unfold xmlText
  induction s with
  | nil => rfl
  | cons c s ih => rw [XmlEscape_cons, xmlGo_escapeChar, ih]; rfl

/-- C11: every ampersand of the escaped text starts a decimal character reference (the strict reader, which
rejects any other ampersand, accepts the text). -/
theorem C11_xml_escape_references (s : Bytes) : (xmlText (XmlEscape s)).isSome = true := by
  rw [C12_xml_escape_reads_swapped]; rfl

/-- C12 for strings without angle brackets: lossless. Missing for the full property: strings with `<` or
`>`, for which it is false (`C12_xml_escape_not_lossless`). -/
theorem C12_xml_escape_lossless_partial (s : Bytes) (h : 60 ∉ s ∧ 62 ∉ s) :
    xmlText (XmlEscape s) = some (s.map UInt8.toNat) := by
  rw [C12_xml_escape_reads_swapped]
  congr 1
  apply List.map_congr_left
  intro c hc
  have h1 : c ≠ 62 := fun h' => h.2 (h' ▸ hc)
  have h2 : c ≠ 60 := fun h' => h.1 (h' ▸ hc)
  simp [h1, h2]

example : (60 : UInt8) ∉ b!"a&b\"'" ∧ (62 : UInt8) ∉ b!"a&b\"'" := by decide

/-- C12 is false of the code: `<` is written as `&#62;`, which is `>`. -/
theorem C12_xml_escape_not_lossless :
    ¬ ∀ s : Bytes, xmlText (XmlEscape s) = some (s.map UInt8.toNat) := by
  intro h
  exact absurd (h b!"<") (by decide)

/-- C12, consequence that does hold for every string: escaping is injective. -/
theorem C12_xml_escape_injective (s t : Bytes) (h : XmlEscape s = XmlEscape t) : s = t := by
  have h1 := C12_xml_escape_reads_swapped s
  rw [h, C12_xml_escape_reads_swapped t] at h1
  refine ((List.map_inj_right ?_).1 (Option.some.inj h1)).symm
  intro a b hab
  have key : ∀ x : UInt8, (if x = 62 then (60 : Nat) else if x = 60 then 62 else x.toNat) =
      (if x = 62 then (60 : UInt8) else if x = 60 then 62 else x).toNat := by
    intro x
    split
    · rfl
    · split <;> rfl
  rw [key, key, UInt8.toNat_inj] at hab
  by_cases a1 : a = 62 <;> by_cases a2 : a = 60 <;> by_cases b1 : b = 62 <;> by_cases b2 : b = 60 <;>
    simp_all

/-! ## C13 trimming -/

/-- C13: left trimming removes the longest prefix made of the given characters. (Strings are shorter than
`npos`.) -/
theorem C13_ltrim (chars s : Bytes) (hlen : s.length < npos) :
    ∃ pre r, ltrim chars s = .ok r ∧ s = pre ++ r ∧ (∀ c ∈ pre, c ∈ chars) ∧
      (∀ c, r.head? = some c → c ∉ chars) := by
  rcases findFirstNotOf_spec chars s 0 with ⟨h1, h2⟩ | ⟨pre, x, post, h1, h2, h3, h4⟩
  · refine ⟨s, [], ?_, by simp, h2, by simp⟩
    rw [ltrim, h1, erase, if_pos (by omega)]
    have : min npos (s.length - 0) = s.length := by omega
    rw [this]; simp
  · refine ⟨pre, x :: post, ?_, h1, h2, by simp; exact h3⟩
    rw [ltrim, h4, erase, if_pos (by omega)]
    have : min (0 + pre.length) (s.length - 0) = pre.length := by subst h1; simp
    rw [this, h1]; simp

/-- C13: right trimming removes the longest suffix made of the given characters. -/
theorem C13_rtrim (chars s : Bytes) (hlen : s.length < npos) :
    ∃ r suf, rtrim chars s = .ok r ∧ s = r ++ suf ∧ (∀ c ∈ suf, c ∈ chars) ∧
      (∀ c, r.getLast? = some c → c ∉ chars) := by
  rcases findLastNotOf_spec chars s 0 npos with ⟨h1, h2⟩ | ⟨pre, x, post, h1, h2, h3, h4⟩
  · refine ⟨[], s, ?_, by simp, h2, by simp⟩
    have : u64 (npos + 1) = 0 := by decide
    rw [rtrim, h1, this, erase, if_pos (by omega)]
    have : min npos (s.length - 0) = s.length := by omega
    rw [this]; simp
  · refine ⟨pre ++ [x], post, ?_, by simp [h1], h2, by simp; exact h3⟩
    have hl : s.length = pre.length + (post.length + 1) := by simp [h1]
    have hu : u64 (0 + pre.length + 1) = pre.length + 1 := by
      unfold u64 npos at *; omega
    rw [rtrim, h4, hu, erase, if_pos (by omega)]
    have hm : min npos (s.length - (pre.length + 1)) = post.length := by omega
    rw [hm, List.drop_eq_nil_of_le (by omega), h1]
    rw [List.append_nil, List.take_append, List.take_of_length_le (by omega)]
    have : pre.length + 1 - pre.length = 1 := by omega
    simp [this]

/-- C13: two-sided trimming removes exactly the outer runs: what remains neither starts nor ends with one of
the characters. -/
theorem C13_trim (chars s : Bytes) (hlen : s.length < npos) :
    ∃ pre r suf, trim chars s = .ok r ∧ s = pre ++ r ++ suf ∧ (∀ c ∈ pre, c ∈ chars) ∧
      (∀ c ∈ suf, c ∈ chars) ∧ (∀ c, r.head? = some c → c ∉ chars) ∧
      (∀ c, r.getLast? = some c → c ∉ chars) := by
  obtain ⟨r1, suf, h1, h2, h3, h4⟩ := C13_rtrim chars s hlen
  have hl : r1.length < npos := by
    have : s.length = r1.length + suf.length := by rw [h2]; simp
    omega
  obtain ⟨pre, r, g1, g2, g3, g4⟩ := C13_ltrim chars r1 hl
  refine ⟨pre, r, suf, by simp [trim, h1, g1], by rw [h2, g2], g3, h3, g4, ?_⟩
  intro c hc
  apply h4
  rw [g2, List.getLast?_append]
  simp [hc]

/-- C13: a string made only of trimmed characters becomes empty. -/
theorem C13_trim_all (chars s : Bytes) (hlen : s.length < npos) (h : ∀ c ∈ s, c ∈ chars) :
    trim chars s = .ok [] := by
  obtain ⟨pre, r, suf, h1, h2, _, _, h5, _⟩ := C13_trim chars s hlen
  cases r with
  | nil => exact h1
  | cons x xs =>
    exact absurd (h x (by rw [h2]; simp)) (h5 x rfl)

/-- C13: trimming twice equals trimming once. -/
theorem C13_trim_idempotent (chars s r : Bytes) (hlen : s.length < npos) (h : trim chars s = .ok r) :
    trim chars r = .ok r := by
  obtain ⟨pre, r', suf, h1, h2, _, _, h5, h6⟩ := C13_trim chars s hlen
  rw [h] at h1
  obtain rfl : r = r' := by injection h1
  have hl : r.length < npos := by
    have : s.length = pre.length + r.length + suf.length := by rw [h2]; simp; omega
    omega
  obtain ⟨pre', r', suf', g1, g2, g3, g4, _, _⟩ := C13_trim chars r hl
  rw [g1]
  have hpre : pre' = [] := by
    cases pre' with
    | nil => rfl
    | cons x xs => exact absurd (g3 x (by simp)) (h5 x (by rw [g2]; simp))
  have hsuf : suf' = [] := by
    rcases List.eq_nil_or_concat suf' with h' | ⟨ys, y, h'⟩
    · exact h'
    · have hy : y ∈ chars := g4 y (by rw [h']; simp)
      exact absurd hy (h6 y (by rw [g2, h']; simp))
  subst hpre hsuf
  rw [g2]; simp

example : trim whitespace b!" \t ab c\r\n" = .ok b!"ab c" ∧ (b!" \t ab c\r\n").length < npos := by decide
example : trim whitespace b!" \t " = .ok [] := by decide

/-! ## C14 removing NULs -/

/-- C14: exactly the non-NUL bytes remain, in order. -/
theorem C14_erasenulls (s : Bytes) : erasenulls s = s.filter (· ≠ 0) := by
  have : ∀ acc : Bytes, s.foldl (fun output c => if c ≠ 0 then output ++ [c] else output) acc =
      acc ++ s.filter (· ≠ 0) := by
    induction s with
    | nil => simp
    | cons c s ih =>
      intro acc
      rw [List.foldl_cons, ih]
      by_cases hc : c = 0 <;> simp [hc]
  unfold erasenulls
  simpa using this []

example : erasenulls [65, 0, 66, 0, 0, 67] = [65, 66, 67] := by decide

/-! ## C15 case-insensitive comparison -/

theorem tolower_eq (c : UInt8) : (tolower c).toNat = asciiLower c.toNat := by
  have : ∀ c : Fin 256, (tolower (UInt8.ofNat c.val)).toNat = asciiLower (UInt8.ofNat c.val).toNat := by
    decide +kernel
  have h := this ⟨c.toNat, c.toNat_lt⟩
  simpa using h

/-- C15: equal exactly when the ASCII lower-cased texts agree. -/
theorem C15_iequals (a b : Bytes) :
    iequals a b = true ↔
      a.map (fun c => asciiLower c.toNat) = b.map (fun c => asciiLower c.toNat) := by
  induction a generalizing b with
  | nil => cases b <;> simp [iequals]
  | cons x xs ih =>
    cases b with
    | nil => simp [iequals]
    | cons y ys =>
      simp only [iequals, Bool.and_eq_true, beq_iff_eq, ih, List.map_cons, List.cons.injEq,
        ← tolower_eq, UInt8.toNat_inj]

/-- C15: the relation is reflexive, symmetric and transitive. -/
theorem C15_iequals_equivalence : Equivalence (fun a b => iequals a b = true) where
  refl a := (C15_iequals a a).2 rfl
  symm h := (C15_iequals _ _).2 ((C15_iequals _ _).1 h).symm
  trans h g := (C15_iequals _ _).2 (((C15_iequals _ _).1 h).trans ((C15_iequals _ _).1 g))

example : iequals b!"WordDocument" b!"worddocument" = true ∧ iequals b!"ab" b!"abc" = false := by decide

/-- C15 for wide strings whose code units are below 256. Missing for the full property: larger code units,
for which it is false (`C15_iequals_wide_wrong`). -/
theorem C15_iequals_wide_partial (a b : List Nat) (ha : ∀ c ∈ a, c < 256) (hb : ∀ c ∈ b, c < 256) :
    iequalsW a b = true ↔ a.map asciiLower = b.map asciiLower := by
  induction a generalizing b with
  | nil => cases b <;> simp [iequalsW]
  | cons x xs ih =>
    cases b with
    | nil => simp [iequalsW]
    | cons y ys =>
      have hx : (UInt8.ofNat x).toNat = x := by
        have := ha x (by simp); simp; omega
      have hy : (UInt8.ofNat y).toNat = y := by
        have := hb y (by simp); simp; omega
      have hxy : (tolower (UInt8.ofNat x) == tolower (UInt8.ofNat y)) = true ↔
          asciiLower x = asciiLower y := by
        rw [beq_iff_eq, ← UInt8.toNat_inj, tolower_eq, tolower_eq, hx, hy]
      simp only [iequalsW, Bool.and_eq_true, hxy,
        ih ys (fun c hc => ha c (by simp [hc])) (fun c hc => hb c (by simp [hc])),
        List.map_cons, List.cons.injEq]

example : iequalsW [0x57, 0x6f] [0x77, 0x4f] = true ∧ (∀ c ∈ [0x57, 0x6f], c < 256) := by decide

/-- C15 is false for wide strings: U+0141 and `a` compare equal. -/
theorem C15_iequals_wide_wrong :
    ¬ ∀ a b : List Nat, iequalsW a b = true ↔ a.map asciiLower = b.map asciiLower := by
  intro h
  exact absurd (h [0x141] [0x61]) (by decide)

/-! ## C16 durations -/

/-- C16: the printed duration reads back as exactly the whole microseconds of the tick count. The reader
insists on two-digit minutes and seconds below 60, and on a fraction that is not zero when present. -/
theorem C16_duration (ticks : Nat) : readDuration (displayDuration ticks) = some (ticks / 10) := by
  unfold displayDuration
  generalize hmic : ticks / 10 = mic
  simp only []
  generalize hms : mic / 1000 = ms
  generalize hmic' : mic - ms * 1000 = fmic
  generalize hsecs : ms / 1000 = secs
  generalize hms' : ms - secs * 1000 = fms
  generalize hmins : secs / 60 = mins
  generalize hsecs' : secs - mins * 60 = fsec
  generalize hhour : mins / 60 = hour
  generalize hmins' : mins - hour * 60 = fmin
  have c58 : (58 : UInt8) < 48 ∨ 57 < (58 : UInt8) := by decide
  have c46 : (46 : UInt8) < 48 ∨ 57 < (46 : UInt8) := by decide
  have b1 : fmic < 1000 := by omega
  have b2 : fms < 1000 := by omega
  have b3 : fsec < 60 := by omega
  have b4 : fmin < 60 := by omega
  have hval : ((hour * 60 + fmin) * 60 + fsec) * 1000000 + (fms * 1000 + fmic) = mic := by omega
  have hL : ¬ (setw0 2 (dec hour)).length < 2 := by have := setw0_length_ge 2 (dec hour); omega
  have hM := readFixed_setw0_dec 2 fmin (by omega) (by omega)
  have hS := readFixed_setw0_dec 2 fsec (by omega) (by omega)
  have h60 : ¬ (60 ≤ fmin ∨ 60 ≤ fsec) := by omega
  have hsplit : ∀ tail : Bytes,
      readDuration (setw0 2 (dec hour) ++ b!":" ++ setw0 2 (dec fmin) ++ b!":" ++ setw0 2 (dec fsec) ++ tail) =
      (do
        let (sec, frac) ← match splitFirst 46 (setw0 2 (dec fsec) ++ tail) with
          | none => some (setw0 2 (dec fsec) ++ tail, 0)
          | some (a, f) => do
            let v ← readFixed 6 f
            if v = 0 then none else some (a, v)
        if (setw0 2 (dec hour)).length < 2 then none
        let hv ← readNumeral 10 (setw0 2 (dec hour))
        let mv ← readFixed 2 (setw0 2 (dec fmin))
        let sv ← readFixed 2 sec
        if 60 ≤ mv ∨ 60 ≤ sv then none
        some (((hv * 60 + mv) * 60 + sv) * 1000000 + frac)) := by
    intro tail
    have e1 : setw0 2 (dec hour) ++ b!":" ++ setw0 2 (dec fmin) ++ b!":" ++ setw0 2 (dec fsec) ++ tail =
        setw0 2 (dec hour) ++ 58 :: (setw0 2 (dec fmin) ++ 58 :: (setw0 2 (dec fsec) ++ tail)) := by simp
    rw [e1, readDuration, splitFirst_append (setw0_dec_ne 2 hour 58 c58)]
    simp only [Option.bind_eq_bind, Option.bind_some, splitFirst_append (setw0_dec_ne 2 fmin 58 c58)]
    rfl
  rw [hsplit]
  by_cases hfrac : fms > 0 ∨ fmic > 0
  · rw [if_pos hfrac]
    have e2 : setw0 2 (dec fsec) ++ (b!"." ++ setw0 3 (dec fms) ++ setw0 3 (dec fmic)) =
        setw0 2 (dec fsec) ++ 46 :: (setw0 3 (dec fms) ++ setw0 3 (dec fmic)) := by simp
    rw [e2, splitFirst_append (setw0_dec_ne 2 fsec 46 c46)]
    have hF : readFixed 6 (setw0 3 (dec fms) ++ setw0 3 (dec fmic)) = some (fms * 1000 + fmic) := by
      have l1 := setw0_length 3 (dec fms) (dec_length_le 3 fms (by omega) (by omega))
      have l2 := setw0_length 3 (dec fmic) (dec_length_le 3 fmic (by omega) (by omega))
      have r1 : readDigits 10 0 (setw0 3 (dec fms)) = some fms := by
        rw [readDigits_setw0 10 3 (by omega), readDigits_dec]
      rw [readFixed, if_pos (by rw [List.length_append, l1, l2]), readNumeral,
        if_neg (by intro h; have := congrArg List.length h; rw [List.length_append, l1, l2] at this; simp at this),
        readDigits_append, r1, Option.bind_some]
      -- three more digits multiply the value read so far by 1000
      have gen : ∀ (s : Bytes) (a v : Nat), readDigits 10 0 s = some v →
          readDigits 10 a s = some (a * 10 ^ s.length + v) := by
        intro s
        have step : ∀ (s : Bytes) (a b v : Nat), readDigits 10 b s = some v →
            readDigits 10 (a + b) s = some (a * 10 ^ s.length + v) := by
          intro s
          induction s with
          | nil => intro a b v h; simp [readDigits] at h ⊢; omega
          | cons c cs ih =>
            intro a b v h
            unfold readDigits at h ⊢
            cases hd : digitVal c with
            | none => simp [hd] at h
            | some d =>
              simp only [hd] at h ⊢
              split at h
              · rename_i hd10
                rw [if_pos hd10]
                have := ih (a * 10) (b * 10 + d) v h
                have e : (a + b) * 10 + d = a * 10 + (b * 10 + d) := by omega
                rw [e, this, List.length_cons, Nat.pow_succ, Nat.mul_assoc, Nat.mul_comm 10]
              · simp at h
        intro a v h
        simpa using step s a 0 v h
      rw [gen _ fms fmic (by rw [readDigits_setw0 10 3 (by omega), readDigits_dec]), l2]
    have hne : ¬ (fms * 1000 + fmic = 0) := by omega
    simp only [hF, Option.bind_eq_bind, Option.bind_some, if_neg hne, if_neg hL,
      readNumeral_setw0_dec, hM, hS, if_neg h60, hval]
  · rw [if_neg hfrac, List.append_nil, splitFirst_none (setw0_dec_ne 2 fsec 46 c46)]
    have hz : fms * 1000 + fmic = 0 := by
      have h := not_or.1 hfrac
      rw [Nat.eq_zero_of_not_pos h.1, Nat.eq_zero_of_not_pos h.2]
    rw [hz] at hval
    simp only [Option.bind_eq_bind, Option.bind_some, if_neg hL,
      readNumeral_setw0_dec, hM, hS, if_neg h60, hval]

example : displayDuration 36610000050 = b!"01:01:01.000005" := by decide +kernel

end Fileid.Props
