import Verif.Lemmas.Formula
import Verif.Props.Text

/-!
# Formulas: termination of the token walk (C52) and the text shown (C72)
-/

namespace Fileid.Props

open Common Spec Excel

/-! ## C52 -/

/-- C52 fails: wherever the walk meets an unknown member of the `0x18` family it stays there for ever, however
many steps it is given. -/
theorem C52_elf_false (abi : Abi) (b : Bytes) (max i : Nat) (k : UInt8) (hi : i < max) (h32 : i + 1 < 2 ^ 32)
    (h0 : rd b i = .ok 0x18) (h1 : rd b (i + 1) = .ok k)
    (hk : k ∉ ([0x01, 0x02, 0x03, 0x06, 0x07, 0x0A, 0x0B, 0x0D, 0x0F, 0x10, 0x1D] : List UInt8)) :
    ∀ fuel list, rgceLoop abi b max fuel i list = .fuel := by
  have hp : parsePtg abi b max i = .ok (.unknown 0x18 k.toNat, 0) := by
    unfold parsePtg
    rw [h0, Res.bind_ok]
    show parseElf b max i = _
    unfold parseElf
    rw [show u32 (i + 1) = i + 1 from Nat.mod_eq_of_lt h32, h1, Res.bind_ok]
    simp only [List.mem_cons, List.not_mem_nil, or_false, not_or] at hk
    simp [hk]
  intro fuel
  induction fuel with
  | zero => intro list; rfl
  | succ n ih =>
    intro list
    unfold rgceLoop
    rw [if_pos hi, hp, Res.bind_ok]
    dsimp only
    rw [Nat.add_zero, show u32 i = i from Nat.mod_eq_of_lt (by omega)]
    exact ih _

/-- The same for an unknown member of the `0x19` family. -/
theorem C52_attr_false (abi : Abi) (b : Bytes) (max i : Nat) (k : UInt8) (hi : i < max) (h32 : i + 1 < 2 ^ 32)
    (h0 : rd b i = .ok 0x19) (h1 : rd b (i + 1) = .ok k)
    (hk : k ∉ ([0x01, 0x02, 0x04, 0x08, 0x10, 0x20, 0x21, 0x40, 0x41] : List UInt8)) :
    ∀ fuel list, rgceLoop abi b max fuel i list = .fuel := by
  have hp : parsePtg abi b max i = .ok (.unknown 0x19 k.toNat, 0) := by
    unfold parsePtg
    rw [h0, Res.bind_ok]
    show parseAttr b max i = _
    unfold parseAttr
    rw [show u32 (i + 1) = i + 1 from Nat.mod_eq_of_lt h32, h1, Res.bind_ok]
    simp only [List.mem_cons, List.not_mem_nil, or_false, not_or] at hk
    simp [hk]
  intro fuel
  induction fuel with
  | zero => intro list; rfl
  | succ n ih =>
    intro list
    unfold rgceLoop
    rw [if_pos hi, hp, Res.bind_ok]
    dsimp only
    rw [Nat.add_zero, show u32 i = i from Nat.mod_eq_of_lt (by omega)]
    exact ih _

/-- C52 fails also without unknown tokens: the choose token moves the index back by its own length. -/
theorem C52_choose_false (abi : Abi) : ∀ fuel, Rgce.Parse abi fuel [3, 3, 3, 3, 0x19, 4, 0, 0] 8 0 = .fuel := by
  have key : ∀ n list, rgceLoop abi [3, 3, 3, 3, 0x19, 4, 0, 0] 8 n 0 list = .fuel ∧
      rgceLoop abi [3, 3, 3, 3, 0x19, 4, 0, 0] 8 n 1 list = .fuel ∧
      rgceLoop abi [3, 3, 3, 3, 0x19, 4, 0, 0] 8 n 2 list = .fuel ∧
      rgceLoop abi [3, 3, 3, 3, 0x19, 4, 0, 0] 8 n 3 list = .fuel ∧
      rgceLoop abi [3, 3, 3, 3, 0x19, 4, 0, 0] 8 n 4 list = .fuel := by
    intro n
    induction n with
    | zero => intro list; exact ⟨rfl, rfl, rfl, rfl, rfl⟩
    | succ n ih =>
      intro list
      refine ⟨?_, ?_, ?_, ?_, ?_⟩
      · exact (ih (list ++ [.named b!"PtgAdd"])).2.1
      · exact (ih (list ++ [.named b!"PtgAdd"])).2.2.1
      · exact (ih (list ++ [.named b!"PtgAdd"])).2.2.2.1
      · exact (ih (list ++ [.named b!"PtgAdd"])).2.2.2.2
      · exact (ih (list ++ [.named b!"PtgAttrChoose"])).1
  intro fuel
  unfold Rgce.Parse
  rw [(key fuel []).1]
  rfl

/-- C52: no number of steps is enough for every byte string. -/
theorem C52_false (abi : Abi) : ¬∃ bound : Bytes → Nat, ∀ b, Rgce.Parse abi (bound b) b b.length 0 ≠ .fuel := by
  intro ⟨bound, h⟩
  refine h [0x18, 0] ?_
  unfold Rgce.Parse
  rw [C52_elf_false abi [0x18, 0] _ 0 0 (by decide) (by decide) rfl rfl (by decide)]
  rfl

/-- C52 for formulas in which every `0x18` and `0x19` byte is followed by a known member of its family other than
the choose token: one step for each byte of the buffer is enough. Missing: the tokens of the `_false` theorems. -/
theorem C52_partial (abi : Abi) (b : Bytes) (max off : Nat) (hmax : max + 300 < 2 ^ 32)
    (helf : ∀ i k, rd b i = .ok 0x18 → rd b (i + 1) = .ok k →
      k ∈ ([0x01, 0x02, 0x03, 0x06, 0x07, 0x0A, 0x0B, 0x0D, 0x0F, 0x10, 0x1D] : List UInt8))
    (hattr : ∀ i k, rd b i = .ok 0x19 → rd b (i + 1) = .ok k →
      k ∈ ([0x01, 0x02, 0x08, 0x10, 0x20, 0x21, 0x40, 0x41] : List UInt8)) (fuel : Nat) (hf : max < fuel) :
    Rgce.Parse abi fuel b max off ≠ .fuel := by
  unfold Rgce.Parse
  refine bind_ne_fuel ?_ (fun _ => ok_ne_fuel _)
  refine rgceLoop_ne_fuel abi b max hmax ?_ fuel off [] (by omega) (by omega)
  intro i hi
  have e : u32 (i + 1) = i + 1 := Nat.mod_eq_of_lt (by omega)
  refine parsePtg_advances abi b max i ?_ ?_
  · intro h k hk; rw [e] at hk; exact helf i k h hk
  · intro h k hk; rw [e] at hk; exact hattr i k h hk

theorem rd_some {b : Bytes} {i : Nat} {k : UInt8} (h : rd b i = .ok k) : b[i]? = some k := by
  unfold rd at h
  cases e : b[i]? with
  | some x => rw [e] at h; injection h with h; rw [h]
  | none => rw [e] at h; cases h

/-- A formula with a column token and a space token meets the conditions, and 1+1 is walked to its end. -/
example : (∀ i k, rd [0x18, 3, 0, 0, 0, 0, 0x19, 0x40, 0, 1] i = .ok 0x18 →
      rd [0x18, 3, 0, 0, 0, 0, 0x19, 0x40, 0, 1] (i + 1) = .ok k →
      k ∈ ([0x01, 0x02, 0x03, 0x06, 0x07, 0x0A, 0x0B, 0x0D, 0x0F, 0x10, 0x1D] : List UInt8)) ∧
    Rgce.Parse Abi.linux 8 [0x1E, 1, 0, 0x1E, 1, 0, 3] 7 0 = .ok ([.int 1, .int 1, .named b!"PtgAdd"], 7) := by
  refine ⟨?_, by rfl⟩
  intro i k h hk
  have h := rd_some h
  have hk := rd_some hk
  match i with
  | 0 => simp at hk; subst hk; decide
  | 1 | 2 | 3 | 4 | 5 | 6 | 7 | 8 | 9 => simp at h
  | n + 10 => simp at h

/-! ## C72 -/

/-- C72: a sequence of well-formed tokens, up to the end of the buffer, is shown as exactly their texts in order,
and its length is reported as consumed. Missing: the tokens `TokenText` leaves out, which the `_false` theorems
concern. -/
theorem C72_partial (abi : Abi) (fmt : Fmt) (names : Nat → Nat → Option Bytes) (b : Bytes) (off : Nat)
    (toks : List (Bytes × Bytes)) (fuel : Nat) (hts : ∀ t ∈ toks, TokenText fmt.f64 names t.1 t.2)
    (hb : b = b.take off ++ toks.flatMap (·.1)) (hoff : off ≤ b.length) (h32 : b.length < 2 ^ 32)
    (hf : toks.length < fuel) :
    ∃ ps, Rgce.Parse abi fuel b b.length off = .ok (ps, (toks.flatMap (·.1)).length) ∧
      ToTextString fmt names ps = joined (toks.map (·.2)) := by
  have hl : (b.take off).length = off := by simp; omega
  have hlen : off + (toks.flatMap (·.1)).length = b.length := by
    have := congrArg List.length hb
    rw [List.length_append, hl] at this
    exact this.symm
  obtain ⟨ps, h, hps⟩ := rgceLoop_tokens (b := b) (max := b.length) abi fmt names h32 toks fuel off [] hts
    ⟨_, [], by rw [List.append_nil]; exact hb, hl⟩ hlen hf
  refine ⟨ps, ?_, ?_⟩
  · unfold Rgce.Parse
    rw [h, Res.bind_ok]
    dsimp only
    rw [List.nil_append]
    congr 2
    unfold sub32
    omega
  · unfold ToTextString
    rw [hps, joined_eq]

/-- The formula `SUM(B3, "ab") & TRUE` as tokens. -/
example : TokenText Fmt.zero.f64 (fun _ _ => none) [0x24, 2, 0, 1, 0xC0] b!"PtgRef(B3)" ∧
    TokenText Fmt.zero.f64 (fun _ _ => none) [0x17, 2, 0, 97, 98] b!"PtgStr(\"ab\")" ∧
    TokenText Fmt.zero.f64 (fun _ _ => none) [0x42, 2, 4, 0] b!"PtgFuncVar(SUM)" ∧
    TokenText Fmt.zero.f64 (fun _ _ => none) [0x1D, 1] b!"PtgBool(true)" ∧
    TokenText Fmt.zero.f64 (fun _ _ => none) [8] b!"PtgConcat" ∧
    joined [b!"PtgRef(B3)", b!"PtgStr(\"ab\")", b!"PtgFuncVar(SUM)", b!"PtgBool(true)", b!"PtgConcat"] =
      b!"PtgRef(B3);PtgStr(\"ab\");PtgFuncVar(SUM);PtgBool(true);PtgConcat" := by
  refine ⟨?_, ?_, ?_, .true, .op (by decide), by decide⟩
  · exact TokenText.ref (t := 0x24) (r := [2, 0]) (c := [1, 0xC0]) (cell := b!"B3") (Or.inl rfl) rfl rfl
      ⟨b!"B", by decide, ⟨by decide, by decide⟩, by decide⟩
  · exact TokenText.str (c := 2) (s := [97, 98]) rfl
  · exact TokenText.funcVar (t := 0x42) (c := 2) (d := [4, 0]) (Or.inr (Or.inl rfl)) rfl (by decide)

/-- C72, whole record: a formula record whose tokens end with the record shows exactly their texts
(in JSON if there is no NUL in a string, in XML if there is no angle bracket: C10 and C12). -/
theorem C72_record_partial (abi : Abi) (fmt : Fmt) (names : Nat → Nat → Option Bytes) (head : Bytes)
    (toks : List (Bytes × Bytes)) (fuel : Nat) (hts : ∀ t ∈ toks, TokenText fmt.f64 names t.1 t.2)
    (hh : head.length = 22) (h32 : (head ++ toks.flatMap (·.1)).length < 2 ^ 32) (hf : toks.length < fuel) :
    ∃ v json xml, mkFormula abi fmt fuel names (head ++ toks.flatMap (·.1)) = .ok v ∧
      (Rec.make 0x0006 (head ++ toks.flatMap (·.1)) v).toJson abi fmt = .ok json ∧
      (Rec.make 0x0006 (head ++ toks.flatMap (·.1)) v).toXml abi fmt = .ok xml ∧
      (0 ∉ joined (toks.map (·.2)) → JsonShows json b!"FormulaString" (joined (toks.map (·.2)))) ∧
      (60 ∉ joined (toks.map (·.2)) ∧ 62 ∉ joined (toks.map (·.2)) →
        XmlShows xml b!"FormulaString" (joined (toks.map (·.2)))) := by
  generalize hb : head ++ toks.flatMap (·.1) = b at *
  have hlen : 22 + (toks.flatMap (·.1)).length = b.length := by rw [← hb, List.length_append, hh]
  have ht : b.take 22 = head := by rw [← hb, ← hh]; simp
  obtain ⟨ps, hp, htext⟩ := C72_partial abi fmt names b 22 toks fuel hts (by rw [ht, hb]) (by omega) h32 hf
  obtain ⟨row, e0⟩ : ∃ v, ReadUShort b b.length 0 = .ok v :=
    ⟨_, readUShort_num (num_of_le (n := 2) (by omega)) (by omega) (by omega)⟩
  obtain ⟨col, e2⟩ : ∃ v, ReadUShort b b.length 2 = .ok v :=
    ⟨_, readUShort_num (num_of_le (n := 2) (by omega)) (by omega) (by omega)⟩
  obtain ⟨x4, e4⟩ : ∃ v, ReadUShort b b.length 4 = .ok v :=
    ⟨_, readUShort_num (num_of_le (n := 2) (by omega)) (by omega) (by omega)⟩
  obtain ⟨x12, e12⟩ : ∃ v, ReadUShort b b.length 12 = .ok v :=
    ⟨_, readUShort_num (num_of_le (n := 2) (by omega)) (by omega) (by omega)⟩
  obtain ⟨x20, e20⟩ : ∃ v, ReadUShort b b.length 20 = .ok v :=
    ⟨_, readUShort_num (num_of_le (n := 2) (by omega)) (by omega) (by omega)⟩
  have hx : RgbExtra b b.length (u32 (22 + (toks.flatMap (·.1)).length)) = .ok () := by
    rw [hlen, show u32 b.length = b.length from Nat.mod_eq_of_lt h32]
    unfold RgbExtra
    rw [if_neg (by omega), Nat.sub_self, rdRange_ok (by omega)]
    rfl
  have hv : mkFormula abi fmt fuel names b = .ok (.formula row col x4
      ((b.drop 6).take 6 ++ (b.drop 12).take 2) ((b.drop 14).take 6) (joined (toks.map (·.2)))) := by
    unfold mkFormula
    dsimp only
    rw [e0, e2, e4, e12, e20, rdRange_ok (by omega), rdRange_ok (by omega), rdRange_ok (by omega), hp]
    simp only [Res.bind_ok]
    rw [hx, htext]
    rfl
  obtain ⟨json, xml, hj, hx, -, -, hesc, -⟩ := printed (abi := abi) (fmt := fmt)
    (r := Rec.make 0x0006 b (.formula row col x4 ((b.drop 6).take 6 ++ (b.drop 12).take 2) ((b.drop 14).take 6)
      (joined (toks.map (·.2)))))
    (l := formulaFields fmt row col ((b.drop 6).take 6 ++ (b.drop 12).take 2) ((b.drop 14).take 6)
      (joined (toks.map (·.2)))) rfl
  refine ⟨_, json, xml, hv, hj, hx, ?_⟩
  obtain ⟨o1, o2⟩ := hesc b!"FormulaString" (joined (toks.map (·.2))) (by simp [formulaFields])
  exact ⟨fun h => ⟨_, C10_json_escape_lossless_partial _ h, o1⟩, fun h => ⟨_, C12_xml_escape_lossless_partial _ h, o2⟩⟩

/-- The formula 1+1 in C4. -/
example : ∃ (head : Bytes) (toks : List (Bytes × Bytes)), head.length = 22 ∧
    (∀ t ∈ toks, TokenText Fmt.zero.f64 (fun _ _ => none) t.1 t.2) ∧
    joined (toks.map (·.2)) = b!"PtgInt(1);PtgInt(1);PtgAdd" := by
  refine ⟨[3, 0, 2, 0, 15, 0, 0, 0, 0, 0, 0, 0, 0, 0, 0, 0, 0, 0, 0, 0, 7, 0],
    [([0x1E, 1, 0], b!"PtgInt(" ++ dec (littleEndian [1, 0]) ++ b!")"),
      ([0x1E, 1, 0], b!"PtgInt(" ++ dec (littleEndian [1, 0]) ++ b!")"), ([3], b!"PtgAdd")], rfl, ?_, by decide⟩
  simp only [List.mem_cons, List.not_mem_nil, or_false]
  rintro t (rfl | rfl | rfl)
  · exact TokenText.int (d := [1, 0]) rfl
  · exact TokenText.int (d := [1, 0]) rfl
  · exact TokenText.op (by decide)

/-- C72 fails for the memory-error token, which is seven bytes long: its last byte is taken for a token. -/
theorem C72_memErr_false : ∃ ps, Rgce.Parse Abi.linux 9 [0x27, 0x17, 0, 0, 0, 0, 3] 7 0 = .ok (ps, 7) ∧
    ToTextString Fmt.zero (fun _ _ => none) ps = b!"PtgMemErr;PtgAdd" := ⟨_, rfl, by decide⟩

/-- C72 fails for the area-error token, which is eleven bytes long: the three bytes behind it are lost. -/
theorem C72_areaErr3d_false : ∃ ps,
    Rgce.Parse Abi.linux 9 ([0x3D, 0, 0, 0, 0, 0, 0, 0, 0, 0, 0] ++ [0x1E, 1, 0]) 14 0 = .ok (ps, 14) ∧
    ToTextString Fmt.zero (fun _ _ => none) ps = b!"PtgAreaErr3d" := ⟨_, rfl, by decide⟩

/-- C72 fails for command calls: bit 15 of the second word marks a command, but every command below 0x4000 is
shown by the name of the function with its number. -/
theorem C72_command_false (abi : Abi) (fmt : Fmt) (names : Nat → Nat → Option Bytes) (b : Bytes) (max i tab : Nat)
    (t : UInt8) (hf : Form t 0x22) (ht : rd b i = .ok t) (hn : Num b (i + 2) 2 (0x8000 + tab)) (htab : tab < 0x4000)
    (hmax : i + 4 ≤ max) (h32 : i + 4 < 2 ^ 32) :
    ∃ p, parsePtg abi b max i = .ok (p, 4) ∧ ptgText fmt names p =
      b!"PtgFuncVar(" ++ nameOf functionNames b!"Unknown_fTab_Function" tab ++ b!")" := by
  obtain ⟨h2, h3, e⟩ := num2 hn
  have room : Room b max i 4 := ⟨by omega, hmax, h32⟩
  have hy : ExtractBits b[i + 2 + 1] 1 7 = .ok 0 := by
    obtain ⟨r, hr, hv, -⟩ := C23_extract_bits b[i + 2 + 1] 1 7 (by omega) (by omega) (by omega)
    have := b[i + 2].toNat_lt
    have hlt : b[i + 2 + 1].toNat < 256 := b[i + 2 + 1].toNat_lt
    rw [hr]
    congr 1
    apply UInt8.toNat_inj.mp
    rw [hv]
    show b[i + 2 + 1].toNat / 64 % 2 = 0
    omega
  obtain ⟨v1, e1⟩ := room.rd (k := 1) (by omega)
  refine ⟨.funcVar tab 0, ?_, ?_⟩
  · have hp : ptgFuncVar b max i = .ok (.funcVar tab 0, 4) := by
      unfold ptgFuncVar
      rw [room.off (by omega), room.off (by omega), room.off (by omega), e1, Res.bind_ok,
        readUShort_num hn (by omega) (by omega), Res.bind_ok, show i + 3 = i + 2 + 1 by omega, rd_lt h3, Res.bind_ok, hy,
        show (0x8000 + tab) % 32768 = tab by omega]
      rfl
    unfold parsePtg
    rw [ht, Res.bind_ok]
    rcases hf with e | e | e <;> simpa [e, variant] using hp
  · show b!"PtgFuncVar(" ++ (Tables.lookup _ _).getD _ ++ b!")" = _
    rw [lookup_nameOf, functions_names]

/-- The command `BEEP` is shown as the function `COUNT`. -/
example : Num [0x22, 0, 0, 0x80] 2 2 0x8000 ∧ nameOf ExcelTables.commands [] 0 = b!"BEEP" ∧
    nameOf functionNames [] 0 = b!"COUNT" := ⟨num_of_le (by decide), by decide, by decide⟩

/-- C72 fails for strings outside Latin-1: two-byte characters are taken for `wchar_t`s, so that on Linux this
two-character string reads behind the buffer. -/
theorem C72_wide_string_false : Rgce.Parse Abi.linux 9 [0x17, 2, 1, 0x53, 4, 0x54, 4] 7 0 = .ub .oobRead := rfl

/-- … and on Windows, where the characters are right, half of their bytes are then taken for tokens. -/
theorem C72_wide_string_windows_false : ∃ ps,
    Rgce.Parse Abi.windows 9 [0x17, 1, 1, 0x53, 4] 5 0 = .ok (ps, 5) ∧
    ToTextString Fmt.zero (fun _ _ => none) ps = b!"PtgStr(\"" ++ [0xD1, 0x93] ++ b!"\");PtgSub" := ⟨_, rfl, by decide⟩

/-- C72 fails for formulas with data behind the tokens (array constants, for example): the length field at
offset 20 is ignored and the data is shown as tokens too. -/
theorem C72_extra_data_false : ∃ v, mkFormula Abi.linux Fmt.zero 99 (fun _ _ => none)
      ([0, 0, 0, 0, 0, 0, 0, 0, 0, 0, 0, 0, 0, 0, 0, 0, 0, 0, 0, 0, 3, 0] ++ [0x1E, 1, 0] ++ [3, 3]) = .ok v ∧
    ∃ a b c d e, v = .formula a b c d e b!"PtgInt(1);PtgAdd;PtgAdd" := ⟨_, rfl, _, _, _, _, _, rfl⟩

/-! ## C73 -/

/-- C73: an accepted formula record shows the value stored with the formula, whichever of the five kinds it is. -/
theorem C73_value (abi : Abi) (fmt : Fmt) (fuel : Nat) (names : Nat → Nat → Option Bytes) (data : Bytes) (v : View)
    (h : mkFormula abi fmt fuel names data = .ok v) :
    ∃ json xml text, (Rec.make 0x0006 data v).toJson abi fmt = .ok json ∧
      (Rec.make 0x0006 data v).toXml abi fmt = .ok xml ∧ FormulaValueText fmt.f64 ((data.drop 6).take 8) text ∧
      (0 ∉ text → JsonShows json b!"Value" text) ∧ (60 ∉ text ∧ 62 ∉ text → XmlShows xml b!"Value" text) := by
  unfold mkFormula at h
  dsimp only at h
  obtain ⟨row, -, h⟩ := bind_eq_ok h
  obtain ⟨col, -, h⟩ := bind_eq_ok h
  obtain ⟨ixfe, -, h⟩ := bind_eq_ok h
  obtain ⟨value, hv, h⟩ := bind_eq_ok h
  obtain ⟨_, -, h⟩ := bind_eq_ok h
  obtain ⟨fe, hfe, h⟩ := bind_eq_ok h
  obtain ⟨flags, -, h⟩ := bind_eq_ok h
  obtain ⟨_, -, h⟩ := bind_eq_ok h
  obtain ⟨rgce, -, h⟩ := bind_eq_ok h
  obtain ⟨_, -, h⟩ := bind_eq_ok h
  injection h with h
  subst h
  have hl : 14 ≤ data.length := by
    by_cases hl : 14 ≤ data.length
    · exact hl
    · rw [rdRange_ub (by omega)] at hfe; cases hfe
  rw [rdRange_ok (by omega)] at hv hfe
  injection hv with hv
  injection hfe with hfe
  have e8 : value ++ fe = (data.drop 6).take 8 := by
    rw [← hv, ← hfe, show (8 : Nat) = 6 + 2 from rfl, List.take_add, List.drop_drop]
  rw [e8]
  obtain ⟨json, xml, hj, hx, -, -, hesc, -⟩ := printed (abi := abi) (fmt := fmt)
    (r := Rec.make 0x0006 data (.formula row col ixfe ((data.drop 6).take 8) flags (ToTextString fmt names rgce.1)))
    (l := formulaFields fmt row col ((data.drop 6).take 8) flags (ToTextString fmt names rgce.1)) rfl
  refine ⟨json, xml, formulaValue fmt ((data.drop 6).take 8), hj, hx, ?_, ?_⟩
  · generalize hb : (data.drop 6).take 8 = b8
    have hb8 : b8.length = 8 := by rw [← hb]; simp; omega
    match b8, hb8 with
    | [b0, b1, b2, b3, b4, b5, b6, b7], _ =>
      unfold formulaValue
      simp only [List.drop_succ_cons, List.drop_zero, List.take_succ_cons, List.take_zero, List.getElem?_cons_zero,
        List.getElem?_cons_succ, List.getD_cons_zero, List.getD_cons_succ, Option.some.injEq]
      have hff : leVal [b6, b7] = 0xFFFF ↔ b6 = 0xFF ∧ b7 = 0xFF := by
        simp only [leVal, Nat.mul_zero, Nat.add_zero]
        have h6 := b6.toNat_lt
        have h7 := b7.toNat_lt
        rw [← UInt8.toNat_inj, ← UInt8.toNat_inj]
        show _ ↔ b6.toNat = 255 ∧ b7.toNat = 255
        omega
      by_cases hf : leVal [b6, b7] = 0xFFFF
      · rw [if_pos hf]
        obtain ⟨rfl, rfl⟩ := hff.1 hf
        by_cases h1 : b0 = 1
        · subst h1
          rw [if_pos rfl]
          by_cases h2 : b2 = 0
          · subst h2; exact .false
          · rw [if_neg h2]; exact .true h2
        · rw [if_neg h1]
          by_cases h2 : b0 = 2
          · subst h2
            rw [if_pos rfl]
            have key : ∀ c : UInt8, ErrorValueString c.toNat = nameOf errorTexts b!"#UNKNOWN" c := by
              have k : ∀ i : Fin 256, ErrorValueString i.val = nameOf errorTexts b!"#UNKNOWN" (UInt8.ofNat i.val) := by
                decide +kernel
              intro c
              have := k ⟨c.toNat, c.toNat_lt⟩
              simpa using this
            rw [key]
            exact .error
          · rw [if_neg h2]; exact .none h1 h2
      · rw [if_neg hf, leVal_eq]
        exact .number rfl fun ⟨e1, e2⟩ => hf (hff.2 ⟨by simpa using e1, by simpa using e2⟩)
  · obtain ⟨o1, o2⟩ := hesc b!"Value" (formulaValue fmt ((data.drop 6).take 8)) (by simp [formulaFields])
    exact ⟨fun h => ⟨_, C10_json_escape_lossless_partial _ h, o1⟩,
      fun h => ⟨_, C12_xml_escape_lossless_partial _ h, o2⟩⟩

/-- A formula whose value is the error `#DIV/0!`. -/
example : ∃ v, mkFormula Abi.linux Fmt.zero 9 (fun _ _ => none)
      [3, 0, 2, 0, 15, 0, 2, 0, 7, 0, 0, 0, 0xFF, 0xFF, 0, 0, 0, 0, 0, 0, 1, 0, 3] = .ok v ∧
    FormulaValueText Fmt.zero.f64 [2, 0, 7, 0, 0, 0, 0xFF, 0xFF] b!"#DIV/0!" := ⟨_, rfl, .error⟩

end Fileid.Props
