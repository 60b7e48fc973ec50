import Verif.Lemmas.Propset

/-!
# C58: properties of compound files
-/

namespace Fileid.Props

open Common Spec Spec.Oleps Propset

/-- How the program's environment writes a real number. -/
def realText (env : Env) : Val → Bytes
  | .single n => env.real (.single n)
  | .double n => env.real (.double n)
  | _ => []

/-- The properties of a stream are shown: the program produces one item for each property of each set, in
order, and the item shows the name, the type and the value of the property. -/
def AllShown (abi : Abi) (env : Env) (c : Bytes) (sets : List (Bytes × List Prop_)) : Prop :=
  ∃ ps, parseContent abi c = .ok ps ∧ ps.length = (allProperties sets).length ∧
    ∀ (i : Nat) (q : Bytes × Prop_), (allProperties sets)[i]? = some q →
      ∃ p : Property, ps[i]? = some p ∧ ShowsProperty (realText env) q.1 q.2 (p.toJson env) (p.toXml env)

/-- C58 for streams all of whose properties satisfy `P`; the property is `C58Holds abi env fun _ => True`. -/
def C58Holds (abi : Abi) (env : Env) (P : Prop_ → Prop) : Prop :=
  ∀ (c : Bytes) (sets : List (Bytes × List Prop_)), c.length < 2 ^ 32 → PropertyStream c sets →
    (∀ s ∈ sets, ∀ p ∈ s.2, P p) → AllShown abi env c sets

/-- The properties shown correctly: 2-byte integers that are not negative, real numbers, truth values, times
from one second after 1970 on (durations: all), strings of the code page and, where wide characters have two
bytes or when empty, UTF-16 strings of ASCII characters; text without `<` and `>` (which the XML text swaps, C12). -/
def Good (abi : Abi) (env : Env) (p : Prop_) : Prop :=
  (p.ty ∈ [2, 4, 5, 8, 0x0B, 0x1E, 0x40] ∨
    p.ty = 0x1F ∧ ∃ us, p.val = .text us ∧ (us = [] ∨ abi.wcharBytes = 2 ∧ ∀ u ∈ us, u < 128)) ∧
  match p.val with
  | .int i => 0 ≤ i
  | .time t => p.id = 10 ∨ env.errnoOverflow = false ∧ 11644473601 ≤ t / 10000000
  | .text cs => 60 ∉ cs ∧ 62 ∉ cs
  | _ => True

theorem stored_text {c : Bytes} {off ty : Nat} {abi : Abi} {cs : List Nat} (h : Stored c off ty (.text cs))
    (hr : Readable abi ty (.text cs)) : ∃ s : Bytes, 0 ∉ s ∧ cs = s.map UInt8.toNat := by
  generalize hv : Val.text cs = v at h
  cases h with
  | @codepage _ k s hty ht hn hat h0 => injection hv with hv; exact ⟨s, h0, hv⟩
  | @wide us ht hn hu h0 =>
    injection hv with hv
    subst hv
    have hasc : ∀ u ∈ cs, u < 128 := by
      rcases hr with hr | ⟨-, us', e, hr⟩
      · exact absurd hr (by decide)
      · injection e with e
        subst e
        rcases hr with rfl | ⟨-, h⟩
        · simp
        · exact h
    refine ⟨cs.map UInt8.ofNat, ?_, (toNat_ofNat_map hasc).symm⟩
    intro hm
    obtain ⟨u, hu', e⟩ := List.mem_map.1 hm
    have h128 := hasc u hu'
    have e' := congrArg UInt8.toNat e
    simp only [UInt8.toNat_ofNat'] at e'
    have hu0 : u = 0 := by
      have : u % 256 = 0 := e'
      omega
    exact h0 (hu0 ▸ hu')
  | _ => cases hv

theorem valueJson_num (env : Env) (p : Property) (n : Nat) (hv : p.value = .int n) (ht : p.type ≠ 0x40) :
    valueJson env p = dec n := by
  unfold valueJson; rw [hv]; exact if_neg ht

theorem valueJson_duration (env : Env) (p : Property) (n : Nat) (hv : p.value = .int n) (ht : p.type = 0x40)
    (hp : p.PID = 10) : valueJson env p = b!"\"" ++ displayDuration n ++ b!"\"" := by
  unfold valueJson; rw [hv, ht, hp]; rfl

theorem valueJson_time (env : Env) (p : Property) (n : Nat) (hv : p.value = .int n) (ht : p.type = 0x40)
    (hp : p.PID ≠ 10) : valueJson env p = b!"\"" ++ FileTimeToString env.errnoOverflow n ++ b!"\"" := by
  unfold valueJson; rw [hv, ht]; dsimp only; rw [if_pos rfl, if_neg hp]

theorem shows_value (abi : Abi) (env : Env) (c : Bytes) (off : Nat) (p : Prop_) (h : Stored c off p.ty p.val)
    (hg : Good abi env p) (f : FormatId) :
    Shows (realText env) p.id p.val (valueJson env (made f p)) (valueXml env (made f p)) := by
  obtain ⟨id, ty, v⟩ := p
  obtain ⟨hr, hg⟩ := hg
  dsimp only at h hg hr
  cases v with
  | int i =>
    have hty : ty ≠ 0x40 := by
      rintro rfl
      generalize hv : Val.int i = v at h
      generalize ht : 0x40 = t at h
      cases h <;> first | (cases hv; done) | (cases ht; done) | (cases hv; cases ht)
    have hi : i < 18446744073709551616 := by
      generalize hv : Val.int i = v at h
      cases h <;> first | (cases hv; done) | skip
      · rename_i n ht hn
        injection hv with hv
        have := hn.lt
        have hn' : n < 65536 := by simpa using this
        rw [hv]; unfold twosComplement; split <;> omega
      · rename_i n ht hn
        injection hv with hv
        have := hn.lt
        have hn' : n < 4294967296 := by simpa using this
        rw [hv]; unfold twosComplement; split <;> omega
      · rename_i n ht hn
        injection hv with hv
        have := hn.lt
        have hn' : n < 4294967296 := by simpa using this
        rw [hv]; omega
      · rename_i n ht hn
        injection hv with hv
        have := hn.lt
        have hn' : n < 18446744073709551616 := by simpa using this
        rw [hv]; unfold twosComplement; split <;> omega
    have e : decInt i = dec (toU64 i) := by
      unfold decInt toU64
      rw [if_neg (by omega)]
      congr 1
      rw [Int.emod_eq_of_lt hg hi]
      omega
    refine ⟨?_, ?_⟩
    · rw [valueJson_num env (made f ⟨id, ty, .int i⟩) _ rfl hty, e]
    · simp only [valueXml, made, kept, e]
  | bool b => exact ⟨rfl, rfl⟩
  | single n => exact ⟨rfl, rfl⟩
  | double n => exact ⟨rfl, rfl⟩
  | time t =>
    obtain ⟨hty, ht64⟩ : ty = 0x40 ∧ t < 2 ^ 64 := by
      generalize hv : Val.time t = v at h
      cases h with
      | filetime ht hn => injection hv with hv; subst hv; exact ⟨rfl, by simpa using hn.lt⟩
      | _ => cases hv
    subst hty
    refine ⟨?_, rfl⟩
    by_cases hid : id = 10
    · refine ⟨displayDuration t, ?_, ?_⟩
      · exact valueJson_duration env (made f ⟨id, 0x40, .time t⟩) t rfl rfl hid
      · dsimp only; rw [if_pos hid]; exact C16_duration t
    · obtain ⟨he, hp⟩ : env.errnoOverflow = false ∧ 11644473601 ≤ t / 10000000 := hg.resolve_left hid
      refine ⟨FileTimeToString false t, ?_, ?_⟩
      · rw [valueJson_time env (made f ⟨id, 0x40, .time t⟩) t rfl rfl hid, he]
      · dsimp only; rw [if_neg hid]; exact C17_timestamp_partial t ht64 hp
  | text cs =>
    obtain ⟨s, h0, rfl⟩ := stored_text h hr
    have h60 : (60 : UInt8) ∉ s := fun hm => hg.1 (List.mem_map.2 ⟨60, hm, rfl⟩)
    have h62 : (62 : UInt8) ∉ s := fun hm => hg.2 (List.mem_map.2 ⟨62, hm, rfl⟩)
    refine ⟨⟨JsonEscape s, ?_, C10_json_escape_lossless_partial s h0⟩, ?_⟩
    · simp only [valueJson, made, kept, ofNat_toNat_map]
    · simp only [valueXml, made, kept, ofNat_toNat_map]
      exact C12_xml_escape_lossless_partial s ⟨h60, h62⟩

/-- C58 for streams of properties as in `Good`. Missing: 4-byte integers, negative 2-byte integers, UTF-16 strings,
the types the program does not read; for these the property is false (below). -/
theorem C58_partial (abi : Abi) (env : Env) : C58Holds abi env (Good abi env) := by
  intro c sets h32 ⟨hn, hs⟩ hg
  let fmt : Bytes → FormatId := fun fid => match FormatIdFromGuid fid with
    | .ok f => f
    | _ => .unknown
  have hfmt : ∀ fid : Bytes, fid.length = 16 → FormatIdFromGuid fid = .ok (fmt fid) ∧
      ∀ id, PropertyIdentifierToString (fmt fid) id = propertyName fid id := by
    intro fid h
    obtain ⟨f, h1, h2⟩ := formatId_spec fid h
    have : fmt fid = f := by simp only [fmt, h1]
    rw [this]; exact ⟨h1, h2⟩
  have hl := hn.length_le
  obtain ⟨bs, hb, he⟩ := rdRange_num hn
  have hmain := setLoop_spec abi c h32 fmt (fun fid h => (hfmt fid h).1) sets 0 []
    (by simpa using hs) (fun s hs p hp => (hg s hs p hp).1)
  refine ⟨sets.flatMap fun s => s.2.map (made (fmt s.1)), ?_, ?_, ?_⟩
  · unfold parseContent
    rw [if_pos (by omega), if_neg (by omega), hb, Res.bind_ok, he, hmain]
    rfl
  · simp [allProperties, List.length_flatMap]
  · have e : (sets.flatMap fun s => s.2.map (made (fmt s.1))) =
        (allProperties sets).map fun q => made (fmt q.1) q.2 := by
      simp only [allProperties, List.map_flatMap, List.map_map]
      rfl
    intro i q hq
    refine ⟨made (fmt q.1) q.2, by rw [e, List.getElem?_map, hq]; rfl, ?_⟩
    have hmem := List.mem_of_getElem? hq
    obtain ⟨s, hsm, hpm⟩ := List.mem_flatMap.1 hmem
    obtain ⟨p, hp, rfl⟩ := List.mem_map.1 hpm
    obtain ⟨k, hk⟩ := List.mem_iff_getElem?.1 hsm
    obtain ⟨base, h16, -, -, -, h5⟩ := hs k s hk
    obtain ⟨j, hj⟩ := List.mem_iff_getElem?.1 hp
    obtain ⟨o, -, -, hst⟩ := h5 j p hj
    refine ⟨_, _, shows_value abi env c _ p hst (hg s hsm p hp) (fmt s.1), ?_, ?_⟩
    · simp only [Property.toJson, made, (hfmt s.1 h16).2, typeName_eq]
      simp
    · simp only [Property.toXml, made, (hfmt s.1 h16).2, typeName_eq]
      simp

/-! ## Samples -/

theorem num_of_eq {c : Bytes} {off n v : Nat} (h : off + n ≤ c.length) (e : leVal ((c.drop off).take n) = v) :
    Num c off n v := e ▸ num_of_le h

/-- A stream with one set (summary information) of one property, whose bytes are given. -/
def one (id : Nat) (d : Bytes) : Bytes :=
  List.replicate 24 0 ++ leBytes 4 1 ++ summaryInformation ++ leBytes 4 48 ++ leBytes 4 (16 + d.length) ++
  leBytes 4 1 ++ leBytes 4 id ++ leBytes 4 16 ++ d

theorem one_stream (id : Nat) (d : Bytes) (hid : id < 2 ^ 32) (ty : Nat) (v : Val) (h : Stored (one id d) 64 ty v) :
    PropertyStream (one id d) [(summaryInformation, [⟨id, ty, v⟩])] := by
  have hl : summaryInformation.length = 16 := by decide
  have num : ∀ (pre : Bytes) (x : Nat) (post : Bytes) (off : Nat), one id d = pre ++ leBytes 4 x ++ post →
      x < 2 ^ 32 → pre.length = off → Num (one id d) off 4 x := by
    intro pre x post off e hx ho
    refine ⟨leBytes 4 x, ⟨pre, post, e, ho⟩, leBytes_length _ _, ?_⟩
    rw [← leVal_eq, leVal_leBytes, Nat.mod_eq_of_lt (by simpa using hx)]
  refine ⟨num (List.replicate 24 0) 1 _ 24 (by simp [one]; rfl) (by decide) (by decide), ?_⟩
  intro i s hi
  cases i with
  | succ i => simp at hi
  | zero =>
    simp only [List.getElem?_cons_zero, Option.some.injEq] at hi
    subst hi
    refine ⟨48, hl, ⟨List.replicate 24 0 ++ leBytes 4 1, _, by simp [one]; rfl, by simp [leBytes_length]⟩, ?_, ?_, ?_⟩
    · exact num (List.replicate 24 0 ++ leBytes 4 1 ++ summaryInformation) 48 _ _ (by simp [one]; rfl) (by decide)
        (by simp [leBytes_length, hl])
    · exact num (List.replicate 24 0 ++ leBytes 4 1 ++ summaryInformation ++ leBytes 4 48 ++ leBytes 4 (16 + d.length))
        1 _ _ (by simp [one]; rfl) (by decide) (by simp [leBytes_length, hl])
    · intro j p hj
      cases j with
      | succ j => simp at hj
      | zero =>
        simp only [List.getElem?_cons_zero, Option.some.injEq] at hj
        subst hj
        refine ⟨16, ?_, ?_, h⟩
        · exact num (List.replicate 24 0 ++ leBytes 4 1 ++ summaryInformation ++ leBytes 4 48 ++
            leBytes 4 (16 + d.length) ++ leBytes 4 1) id _ _ (by simp [one]; rfl) hid (by simp [leBytes_length, hl])
        · exact num (List.replicate 24 0 ++ leBytes 4 1 ++ summaryInformation ++ leBytes 4 48 ++
            leBytes 4 (16 + d.length) ++ leBytes 4 1 ++ leBytes 4 id) 16 _ _ (by simp [one]; rfl) (by decide)
            (by simp [leBytes_length, hl])

/-- A title "Ab" as a string of the code page. -/
def titleBytes : Bytes := [0x1E, 0, 0, 0, 3, 0, 0, 0, 65, 98, 0, 0]

theorem title_stored : Stored (one 2 titleBytes) 64 0x1E (.text [65, 98]) :=
  .codepage (k := 1) (s := [65, 98]) (.inr rfl) (num_of_eq (by decide) (by decide))
    (num_of_eq (by decide) (by decide))
    ⟨(one 2 titleBytes).take 72, (one 2 titleBytes).drop 75, by decide, by decide⟩ (by decide)

/-- `C58_partial` applies to it. -/
example (env : Env) : AllShown .linux env (one 2 titleBytes) [(summaryInformation, [⟨2, 0x1E, .text [65, 98]⟩])] :=
  C58_partial .linux env _ _ (by decide) (one_stream 2 titleBytes (by decide) _ _ title_stored)
    (by intro s hs p hp
        simp only [List.mem_singleton] at hs
        subst hs
        simp only [List.mem_singleton] at hp
        subst hp
        exact ⟨.inl (by decide), by decide, by decide⟩)

example : parseContent .linux (one 2 titleBytes) =
    .ok [{ PID := 2, FMTID := .summary, type := 0x1E, value := .str [65, 98] }] := by decide +kernel

/-! ## What is not shown -/

/-- Everything follows from the one property of a sample. -/
theorem one_false (abi : Abi) (env : Env) (P : Prop_ → Prop) (id : Nat) (d : Bytes) (ty : Nat) (v : Val)
    (hid : id < 2 ^ 32) (hl : (one id d).length < 2 ^ 32) (h : Stored (one id d) 64 ty v) (hP : P ⟨id, ty, v⟩)
    (hbad : ∀ ps, parseContent abi (one id d) = .ok ps → ∀ p : Property, ps[0]? = some p →
      ¬ ShowsProperty (realText env) summaryInformation ⟨id, ty, v⟩ (p.toJson env) (p.toXml env)) :
    ¬ C58Holds abi env P := by
  intro hc
  obtain ⟨ps, h1, h2, h3⟩ := hc _ _ hl (one_stream id d hid ty v h) (by
    intro s hs p hp
    simp only [List.mem_singleton] at hs
    subst hs
    simp only [List.mem_singleton] at hp
    subst hp
    exact hP)
  obtain ⟨p, hp, hsh⟩ := h3 0 (summaryInformation, ⟨id, ty, v⟩) rfl
  exact hbad ps h1 p hp hsh

/-- Every 4-byte integer (VT_I4: page count, security flags, ...) is read with its bytes reversed. -/
theorem C58_i4_reversed (abi : Abi) (c : Bytes) (off id : Nat) (a b d e : UInt8) (h32 : c.length < 2 ^ 32)
    (ht : Num c off 2 3) (hv : At c (off + 4) [a, b, d, e]) :
    ReadProperty abi c c.length off id =
      .ok { PID := id, type := 3, value := .int (toU64 (twosComplement 32 (littleEndian [e, d, b, a]))) } := by
  obtain ⟨bs, hb, he⟩ := rdRange_num ht
  have hl := hv.length_le
  simp only [List.length_cons, List.length_nil] at hl
  unfold ReadProperty
  rw [hb, Res.bind_ok]
  dsimp only
  have e4 : u32 (off + 4) = off + 4 := by unfold u32; omega
  rw [he, e4]
  unfold readValue
  rw [if_neg (by decide), if_neg (by decide), if_pos rfl,
    C19_sint_reversed_partial c c.length (off + 4) false a b d e hv (by omega) (by omega)]
  rfl

example : Num (one 0xE [3, 0, 0, 0, 1, 0, 0, 0]) 64 2 3 ∧
    At (one 0xE [3, 0, 0, 0, 1, 0, 0, 0]) (64 + 4) [1, 0, 0, 0] :=
  ⟨num_of_eq (by decide) (by decide), ⟨(one 0xE [3, 0, 0, 0, 1, 0, 0, 0]).take 68, [], by decide, by decide⟩⟩

/-- C58 is false of 4-byte integers: a page count of 1 is shown as 16777216. -/
theorem C58_i4_false (abi : Abi) (env : Env) : ¬ C58Holds abi env fun p => p.ty = 3 := by
  have hst : Stored (one 0xE [3, 0, 0, 0, 1, 0, 0, 0]) 64 3 (.int (twosComplement 32 1)) :=
    .i4 (num_of_eq (by decide) (by decide)) (num_of_eq (by decide) (by decide))
  refine one_false abi env _ 0xE [3, 0, 0, 0, 1, 0, 0, 0] 3 _ (by decide) (by decide) hst rfl ?_
  intro ps hps p hp hsh
  have hv : parseContent abi (one 0xE [3, 0, 0, 0, 1, 0, 0, 0]) =
      .ok [{ PID := 0xE, FMTID := .summary, type := 3, value := .int 16777216 }] := rfl
  rw [hv] at hps
  injection hps with hps
  subst hps
  simp only [List.getElem?_cons_zero, Option.some.injEq] at hp
  subst hp
  obtain ⟨jv, xv, ⟨hj, -⟩, hjson, -⟩ := hsh
  subst hj
  rw [show Property.toJson env { PID := 0xE, FMTID := .summary, type := 3, value := .int 16777216 } =
    Property.toJson ⟨fun _ => [], false⟩ { PID := 0xE, FMTID := .summary, type := 3, value := .int 16777216 } from by
    unfold Property.toJson
    rw [valueJson_num env _ _ rfl (by decide), valueJson_num ⟨fun _ => [], false⟩ _ _ rfl (by decide)]] at hjson
  revert hjson
  decide +kernel

/-- C58 is false of negative 2-byte integers: the code page 65001 (UTF-8), stored as -535, is shown as
18446744073709551081. -/
theorem C58_i2_false (abi : Abi) (env : Env) : ¬ C58Holds abi env fun p => p.ty = 2 := by
  have hst : Stored (one 1 [2, 0, 0, 0, 0xE9, 0xFD, 0, 0]) 64 2 (.int (twosComplement 16 65001)) :=
    .i2 (num_of_eq (by decide) (by decide)) (num_of_eq (by decide) (by decide))
  refine one_false abi env _ 1 [2, 0, 0, 0, 0xE9, 0xFD, 0, 0] 2 _ (by decide) (by decide) hst rfl ?_
  intro ps hps p hp hsh
  have hv : parseContent abi (one 1 [2, 0, 0, 0, 0xE9, 0xFD, 0, 0]) =
      .ok [{ PID := 1, FMTID := .summary, type := 2, value := .int 18446744073709551081 }] := rfl
  rw [hv] at hps
  injection hps with hps
  subst hps
  simp only [List.getElem?_cons_zero, Option.some.injEq] at hp
  subst hp
  obtain ⟨jv, xv, ⟨hj, -⟩, hjson, -⟩ := hsh
  subst hj
  rw [show Property.toJson env { PID := 1, FMTID := .summary, type := 2, value := .int 18446744073709551081 } =
    Property.toJson ⟨fun _ => [], false⟩ { PID := 1, FMTID := .summary, type := 2, value := .int 18446744073709551081 } from by
    unfold Property.toJson
    rw [valueJson_num env _ _ rfl (by decide), valueJson_num ⟨fun _ => [], false⟩ _ _ rfl (by decide)]] at hjson
  revert hjson
  decide +kernel

/-- C58 is false of unsigned 4-byte integers (VT_UI4), a type the program names but does not read: the value is
"unknown". -/
theorem C58_ui4_false (abi : Abi) (env : Env) : ¬ C58Holds abi env fun p => p.ty = 0x13 := by
  have hst : Stored (one 0xE [0x13, 0, 0, 0, 7, 0, 0, 0]) 64 0x13 (.int (7 : Nat)) :=
    .ui4 (num_of_eq (by decide) (by decide)) (num_of_eq (by decide) (by decide))
  refine one_false abi env _ 0xE [0x13, 0, 0, 0, 7, 0, 0, 0] 0x13 _ (by decide) (by decide) hst rfl ?_
  intro ps hps p hp hsh
  have hv : parseContent abi (one 0xE [0x13, 0, 0, 0, 7, 0, 0, 0]) =
      .ok [{ PID := 0xE, FMTID := .summary, type := 0x13, value := .none }] := rfl
  rw [hv] at hps
  injection hps with hps
  subst hps
  simp only [List.getElem?_cons_zero, Option.some.injEq] at hp
  subst hp
  obtain ⟨jv, xv, ⟨hj, -⟩, hjson, -⟩ := hsh
  subst hj
  rw [show Property.toJson env { PID := 0xE, FMTID := .summary, type := 0x13, value := .none } =
    Property.toJson ⟨fun _ => [], false⟩ { PID := 0xE, FMTID := .summary, type := 0x13, value := .none } from by
    simp only [Property.toJson, valueJson]] at hjson
  revert hjson
  decide +kernel

/-- On Linux (wide characters of four bytes) every UTF-16 string of at least two units, the second of which is 0x11
or more, makes reading fail: two units are taken as one character beyond Unicode. -/
theorem C58_wide_linux (c : Bytes) (off id : Nat) (u v : Nat) (us : List Nat) (h32 : c.length < 2 ^ 32)
    (h : Stored c off 0x1F (.text (u :: v :: us))) (hv : 0x11 ≤ v) :
    ReadProperty .linux c c.length off id = .throw .rangeError := by
  obtain ⟨bs, hb, he⟩ := rdRange_num (stored_type h)
  generalize hval : Val.text (u :: v :: us) = val at h
  generalize hty : (0x1F : Nat) = ty at h hb
  cases h with
  | wide ht hn hu h0 =>
    injection hval with hval
    subst hval
    have hl := unitsAt_length hu (by simp)
    simp only [List.length_append, List.length_cons, List.length_nil] at hl
    simp only [List.length_cons] at hn
    have hu0 := hu 0 u rfl
    have hu1 := hu 1 v rfl
    have eq0 := hu0.eq
    have eq1 := hu1.eq
    have e4 : u32 (off + 4) = off + 4 := by unfold u32; omega
    have e8 : u32 (off + 4 + 4) = off + 8 := by unfold u32; omega
    have es : u32 (sub32 (us.length + 1 + 1 + 1) 1 * 2) = 2 * us.length + 4 := by unfold sub32 u32; omega
    unfold ReadProperty
    rw [hb, Res.bind_ok]
    dsimp only
    rw [he, e4]
    have hread : ∃ w ws, ReadWString .linux c c.length (off + 8) (2 * us.length + 4) = .ok (w :: ws) ∧
        0x10FFFF < w := by
      unfold ReadWString
      rw [if_neg (by unfold u32; omega), if_neg (by unfold u32; omega)]
      dsimp only
      have hw : Abi.linux.wcharBytes = 4 := rfl
      obtain ⟨n, hn'⟩ : ∃ n, (2 * us.length + 4) / 4 = n + 1 := ⟨2 * us.length / 4, by omega⟩
      rw [hw, hn', rdRange_ok (by omega), Res.bind_ok, units]
      refine ⟨_, _, rfl, ?_⟩
      have hlo := hu0.lt
      have hnum : Num c (off + 8) 4 (u + 65536 * v) := by
        obtain ⟨bs0, ⟨pre0, post0, ec0, el0⟩, hl0, hv0⟩ := hu0
        obtain ⟨bs1, ⟨pre1, post1, ec1, el1⟩, hl1, hv1⟩ := hu1
        have hfull : off + 8 + 4 ≤ c.length := by omega
        have := num_of_le hfull
        obtain ⟨lo, hi, n1, n2, e⟩ := num_split (a := 2) (b := 2) this
        have a1 := num_unique n1 (hu 0 u rfl)
        have a2 := num_unique n2 (hu 1 v rfl)
        rw [e, a1, a2] at this
        exact this
      have := hnum.eq
      rw [List.take_take, Nat.min_eq_left (by omega), ← this]
      omega
    obtain ⟨w, ws, hr, hw⟩ := hread
    have hval : readValue .linux c c.length (off + 4) 0x1F = .throw .rangeError := by
      show (do
        let size ← ReadUInt c c.length (off + 4) Bool.true
        let tmpwStr ← ReadWString .linux c c.length (u32 (off + 4 + 4)) (u32 (sub32 size 1 * 2))
        let s ← Excel.convert .linux tmpwStr
        Res.ok (Value.str (erasenulls s))) = _
      rw [readUInt_num hn (by omega) (by omega), Res.bind_ok, e8, es, hr, Res.bind_ok, Excel.convert, if_pos hw]
      rfl
    rw [hval]
    rfl
  | codepage hty' ht hn hat h0 => rcases hty' with rfl | rfl <;> cases hty
  | _ => cases hval

/-- A title "Hi" as a UTF-16 string. -/
def wideTitle : Bytes := [0x1F, 0, 0, 0, 3, 0, 0, 0, 72, 0, 105, 0, 0, 0]

theorem wideTitle_stored : Stored (one 2 wideTitle) 64 0x1F (.text [72, 105]) := by
  refine .wide (num_of_eq (by decide) (by decide)) (num_of_eq (by decide) (by decide)) ?_ (by decide)
  intro k u hk
  match k with
  | 0 => injection hk with hk; subst hk; exact num_of_eq (by decide) (by decide)
  | 1 => injection hk with hk; subst hk; exact num_of_eq (by decide) (by decide)
  | 2 => injection hk with hk; subst hk; exact num_of_eq (by decide) (by decide)
  | k + 3 => simp at hk

/-- C58 is false of UTF-16 strings on Linux. -/
theorem C58_wide_false (env : Env) : ¬ C58Holds .linux env fun p => p.ty = 0x1F := by
  refine one_false .linux env _ 2 wideTitle 0x1F _ (by decide) (by decide) wideTitle_stored rfl ?_
  intro ps hps
  have hv : parseContent .linux (one 2 wideTitle) = .throw .rangeError := rfl
  rw [hv] at hps
  cases hps

/-- A stored UTF-16 string of length 0 is read from outside the stream, wherever it stands. -/
theorem C58_empty_wide_unsafe (abi : Abi) (c : Bytes) (off id : Nat) (h32 : c.length < 2 ^ 32)
    (ht : Num c off 2 0x1F) (hn : Num c (off + 4) 4 0) :
    ReadProperty abi c c.length off id = .ub .oobRead := by
  obtain ⟨bs, hb, he⟩ := rdRange_num ht
  have hl := hn.length_le
  have e4 : u32 (off + 4) = off + 4 := by unfold u32; omega
  have e8 : u32 (off + 4 + 4) = u32 (off + 8) := by congr 1
  unfold ReadProperty
  rw [hb, Res.bind_ok]
  dsimp only
  rw [he, e4]
  have hval : readValue abi c c.length (off + 4) 0x1F = .ub .oobRead := by
    show (do
      let size ← ReadUInt c c.length (off + 4) Bool.true
      let tmpwStr ← ReadWString abi c c.length (u32 (off + 4 + 4)) (u32 (sub32 size 1 * 2))
      let s ← Excel.convert abi tmpwStr
      Res.ok (Value.str (erasenulls s))) = _
    rw [readUInt_num hn (by omega) (by omega), Res.bind_ok]
    unfold ReadWString
    rw [if_neg (by unfold sub32 u32; omega), if_pos (by unfold sub32 u32; omega)]
    rfl
  rw [hval]
  rfl

example : Num (one 2 [0x1F, 0, 0, 0, 0, 0, 0, 0]) 64 2 0x1F ∧ Num (one 2 [0x1F, 0, 0, 0, 0, 0, 0, 0]) (64 + 4) 4 0 :=
  ⟨num_of_eq (by decide) (by decide), num_of_eq (by decide) (by decide)⟩

/-- A property whose offset lies behind the end of the stream is read from outside the stream: shown for the first
property of the first set, with any stream around it. -/
theorem C58_offset_unsafe (abi : Abi) (c : Bytes) (n base k id o : Nat) (h32 : c.length < 2 ^ 32)
    (hn : Num c 24 4 (n + 1)) (hb : Num c 44 4 base) (hk : Num c (base + 4) 4 (k + 1))
    (hid : Num c (base + 8) 4 id) (ho : Num c (base + 12) 4 o) (hout : c.length < base + o + 2)
    (hwrap : base + o < 2 ^ 32) : parseContent abi c = .ub .oobRead := by
  have l1 := hb.length_le
  have l2 := ho.length_le
  obtain ⟨b1, r1, e1⟩ := rdRange_num hn
  obtain ⟨b2, r2, e2⟩ := rdRange_num hb
  obtain ⟨b3, r3, e3⟩ := rdRange_num hk
  obtain ⟨b4, r4, e4⟩ := rdRange_num hid
  obtain ⟨b5, r5, e5⟩ := rdRange_num ho
  have eb : u32 (base + 8) = base + 8 := by unfold u32; omega
  have eo : u32 (base + o) = base + o := by unfold u32; omega
  unfold parseContent
  rw [if_pos (by omega), if_neg (by omega), r1, Res.bind_ok, e1, setLoop]
  dsimp only
  rw [show u32 (28 + 0 * 20) = 28 from rfl, if_neg (by omega), rdRange_ok (by omega), Res.bind_ok, r2, Res.bind_ok,
    e2, if_neg (by omega), r3, Res.bind_ok, e3, propertyLoop, eb, r4, Res.bind_ok,
    show base + 8 + 4 = base + 12 from rfl, r5, Res.bind_ok, e5, eo]
  unfold ReadProperty
  rw [rdRange_ub (by omega)]
  rfl

example : let c := one 2 []
    Num c 24 4 (0 + 1) ∧ Num c 44 4 48 ∧ Num c (48 + 4) 4 (0 + 1) ∧ Num c (48 + 8) 4 2 ∧ Num c (48 + 12) 4 16 ∧
    c.length < 48 + 16 + 2 :=
  ⟨num_of_eq (by decide) (by decide), num_of_eq (by decide) (by decide), num_of_eq (by decide) (by decide),
    num_of_eq (by decide) (by decide), num_of_eq (by decide) (by decide), by decide⟩

end Fileid.Props
