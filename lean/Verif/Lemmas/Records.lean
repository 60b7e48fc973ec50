import Verif.Spec.Records
import Verif.Lemmas.ReportExcelXml
import Verif.Lemmas.WorkbookSheets
import Verif.Lemmas.Formula

/-!
# Lemmas about the contents of workbook records
-/

namespace Fileid.Excel

open Common Spec Spec.Biff ExcelTables

/-! ## Bit fields -/

def widths (l : List (Nat × Nat)) : Nat := (l.map Prod.fst).sum

theorem packed_lt {l : List (Nat × Nat)} (h : ∀ f ∈ l, f.2 < 2 ^ f.1) : packed l < 2 ^ widths l := by
  induction l with
  | nil => simp [packed, widths]
  | cons f l ih =>
    have h1 := h f (by simp)
    have h2 := ih fun g hg => h g (by simp [hg])
    have e : widths (f :: l) = f.1 + widths l := rfl
    rw [packed, e, Nat.pow_add]
    calc f.2 + 2 ^ f.1 * packed l < 2 ^ f.1 + 2 ^ f.1 * packed l := by omega
      _ = 2 ^ f.1 * (packed l + 1) := by rw [Nat.mul_add]; omega
      _ ≤ 2 ^ f.1 * 2 ^ widths l := Nat.mul_le_mul_left _ h2

theorem packed_append (a b : List (Nat × Nat)) : packed (a ++ b) = packed a + 2 ^ widths a * packed b := by
  induction a with
  | nil => simp [packed, widths]
  | cons f a ih =>
    have e : widths (f :: a) = f.1 + widths a := rfl
    rw [List.cons_append, packed, packed, ih, e, Nat.pow_add, Nat.mul_add, Nat.mul_assoc]
    omega

/-- The low bits of a bit field can be read back. -/
theorem bits_packed_low {a b : List (Nat × Nat)} {k w v : Nat} (ha : ∀ f ∈ a, f.2 < 2 ^ f.1) (hk : k ≤ w) :
    bits (packed (a ++ (w, v) :: b)) (widths a) k = v % 2 ^ k := by
  unfold bits
  rw [packed_append, Nat.add_mul_div_left _ _ (Nat.two_pow_pos _), Nat.div_eq_of_lt (packed_lt ha), Nat.zero_add, packed,
    show 2 ^ w = 2 ^ k * 2 ^ (w - k) by rw [← Nat.pow_add]; congr 1; omega, Nat.mul_assoc]
  exact Nat.add_mul_mod_self_left _ _ _

/-- A bit field can be read back. -/
theorem bits_packed {a b : List (Nat × Nat)} {w v : Nat} (ha : ∀ f ∈ a, f.2 < 2 ^ f.1) (hv : v < 2 ^ w) :
    bits (packed (a ++ (w, v) :: b)) (widths a) w = v := by
  rw [bits_packed_low ha (Nat.le_refl w), Nat.mod_eq_of_lt hv]

theorem bits_mod {n k lo w : Nat} (h : lo + w ≤ k) : bits (n % 2 ^ k) lo w = bits n lo w := by
  unfold bits
  rw [show 2 ^ k = 2 ^ lo * 2 ^ (k - lo) by rw [← Nat.pow_add]; congr 1; omega, Nat.mod_mul_right_div_self,
    Nat.mod_mod_of_dvd _ (Nat.pow_dvd_pow 2 (by omega))]

/-! ## Reading -/

theorem sint_at {b : Bytes} {off n : Nat} (h : At b off (leBytes 4 n)) (hn : n < 2 ^ 31) (hb : b.length < 2 ^ 32) :
    ReadSInt b b.length off true = .ok (n : Int) := by
  have hl := h.length_le
  rw [leBytes_length] at hl
  obtain ⟨h0, h1, h2, h3, e⟩ := num4 (Vba.num_at h (by omega))
  have e1 : u32 (off + 1) = off + 1 := by unfold u32; omega
  have e2 : u32 (off + 2) = off + 2 := by unfold u32; omega
  have e3 : u32 (off + 3) = off + 3 := by unfold u32; omega
  unfold ReadSInt
  rw [e1, e2, e3, if_neg (by omega)]
  simp only [↓reduceIte, rd_lt h1, rd_lt h0, rd_lt h2, rd_lt h3, Res.bind_ok, or32]
  have := b[off].toNat_lt
  have := b[off + 1].toNat_lt
  have := b[off + 2].toNat_lt
  have := b[off + 3].toNat_lt
  have e' : ((b[off + 3].toNat * 256 + b[off + 2].toNat) * 256 + b[off + 1].toNat) * 256 + b[off].toNat = n := by omega
  congr 1
  unfold toSigned
  rw [e', Nat.mod_eq_of_lt (by omega), if_pos (by omega)]

/-- A 16-bit word of the first bytes. -/
theorem word_at {data : Bytes} {i k n : Nat} (h : At data i (leBytes 2 n)) (hk : i + 2 ≤ k) :
    leVal (((data.take k).drop i).take 2) = n % 2 ^ 16 := by
  have := h.eq_take_drop
  rw [leBytes_length] at this
  rw [List.drop_take, List.take_take, Nat.min_eq_left (by omega), this, leVal_leBytes]

theorem byte_at {data : Bytes} {i k : Nat} {c : UInt8} (h : At data i [c]) (hk : i < k) : (data.take k).getD i 0 = c := by
  have h1 := h.getElem? 0 (by simp)
  rw [List.getD_eq_getElem?_getD, List.getElem?_take_of_lt hk]
  simp at h1
  rw [h1]; rfl

theorem leBytes_split (n : Nat) : leBytes 4 n = leBytes 2 n ++ leBytes 2 (n / 2 ^ 16) := by
  simp only [leBytes, List.cons_append, List.nil_append, Nat.div_div_eq_div_mul]

/-- The text of an `XLUnicodeString` of one-byte characters (the flags are not looked at). -/
theorem xlString_at {data s : Bytes} {off : Nat} {f : UInt8} (h : At data off (leBytes 2 s.length ++ [f] ++ s)) (hs : s.length < 2 ^ 16)
    (hb : data.length < 2 ^ 32) : XLUnicodeString data off data.length = .ok (s, 3 + s.length) := by
  have hl := h.length_le
  simp only [List.length_append, leBytes_length, List.length_singleton] at hl
  obtain ⟨h1, h3⟩ := at_append h
  obtain ⟨h1, h2⟩ := at_append h1
  rw [leBytes_length] at h2
  rw [List.length_append, leBytes_length] at h3
  replace h3 : At data (off + 3) _ := h3
  unfold XLUnicodeString
  rw [Asf.ushort_at h1 hs hb, Res.bind_ok, show u32 (off + 2) = off + 2 from Nat.mod_eq_of_lt (by omega), (at_cons h2).1, Res.bind_ok,
    show u32 (off + 3) = off + 3 from Nat.mod_eq_of_lt (by omega)]
  dsimp only
  rw [if_neg (by omega), rdRange_of_at h3 rfl, Res.bind_ok]

/-! ## Shared strings -/

theorem wide_length (s : Bytes) : (s.flatMap fun c => [c, 0]).length = 2 * s.length := by
  induction s with
  | nil => rfl
  | cons c s ih => rw [List.flatMap_cons, List.length_append, ih, List.length_cons]; simp; omega

theorem units_wide (s : Bytes) : units 2 s.length (s.flatMap fun c => [c, 0]) = s.map UInt8.toNat := by
  induction s with
  | nil => rfl
  | cons c s ih =>
    rw [List.flatMap_cons, List.length_cons, units]
    show leVal [c, 0] :: units 2 s.length _ = _
    rw [List.map_cons]
    congr 1

/-- The text is read as it is meant: with one byte for each character, or where a wide character has two bytes. -/
def Reads (abi : Abi) (t : XText) : Prop := t.wide = true → abi.wcharBytes = 2

theorem encode_length (t : XText) : t.encode.length = 3 + t.stored.length := by
  unfold XText.encode
  simp [leBytes_length]; omega

theorem stored_ge (t : XText) : t.chars.length ≤ t.stored.length := by
  unfold XText.stored
  split
  · rw [wide_length]; omega
  · omega

theorem rich_at {abi : Abi} {data : Bytes} {off : Nat} {t : XText} (h : At data off t.encode) (ht : t.Valid) (hw : Reads abi t)
    (hb : data.length < 2 ^ 31) : XLUnicodeRichExtendedString abi data off data.length = .ok (t.chars, t.encode.length) := by
  have hl := h.length_le
  have he := encode_length t
  have hg := stored_ge t
  unfold XText.encode at h
  obtain ⟨h1, h3⟩ := at_append h
  obtain ⟨h1, h2⟩ := at_append h1
  rw [leBytes_length] at h2
  rw [List.length_append, leBytes_length] at h3
  replace h3 : At data (off + 3) _ := h3
  have hc : 0 ∉ t.chars := fun h0 => by have := (ht.2 0 h0).1; simp at this
  unfold XLUnicodeRichExtendedString
  rw [Asf.ushort_at h1 ht.1 (by omega), Res.bind_ok, show u32 (off + 2) = off + 2 from Nat.mod_eq_of_lt (by omega), (at_cons h2).1,
    Res.bind_ok, show u32 (off + 3) = off + 3 from Nat.mod_eq_of_lt (by omega)]
  have hx : ExtractBits t.flags 1 3 = .ok 0 := by unfold XText.flags; cases t.wide <;> decide
  have hy : ExtractBits t.flags 1 4 = .ok 0 := by unfold XText.flags; cases t.wide <;> decide
  have hz : ExtractBits t.flags 1 1 = .ok t.flags := by unfold XText.flags; cases t.wide <;> decide
  have hr : richHeader data data.length (off + 3) 0 0 = .ok (off + 3) := rfl
  rw [hz, Res.bind_ok, hx, Res.bind_ok, hy, Res.bind_ok, hr, Res.bind_ok]
  dsimp only
  have hn : ¬u32 (t.chars.length + (off + 3)) > data.length := by
    rw [show u32 (t.chars.length + (off + 3)) = t.chars.length + (off + 3) from Nat.mod_eq_of_lt (by omega)]; omega
  have hp : ¬((t.chars.length : Int) < 0) := by omega
  simp only [if_neg hn, if_neg hp, Int.toNat_natCast]
  unfold XText.stored at h3 he
  unfold XText.flags
  by_cases hwide : t.wide = true
  · rw [if_pos hwide] at h3 he
    rw [if_pos hwide, if_neg (by decide)]
    rw [wide_length] at he
    unfold wideString
    rw [hw hwide, rdRange_of_at h3 (by rw [wide_length]; omega), Res.bind_ok, units_wide,
      Propset.convert_ascii _ _ (by
        intro u hu
        obtain ⟨c, hc, rfl⟩ := List.mem_map.1 hu
        exact (ht.2 c hc).2), Res.bind_ok, Propset.ofNat_toNat_map, Propset.erasenulls_id hc]
    congr 2
    rw [show u32 (off + 3 + t.chars.length * 2) = off + 3 + t.chars.length * 2 from Nat.mod_eq_of_lt (by omega)]
    unfold sub32; omega
  · rw [if_neg hwide] at h3 he
    rw [if_neg hwide, if_pos rfl, rdRange_of_at h3 rfl, Res.bind_ok]
    congr 2
    rw [show u32 (off + 3 + t.chars.length) = off + 3 + t.chars.length from Nat.mod_eq_of_lt (by omega)]
    unfold sub32; omega

theorem sst_at {abi : Abi} {data : Bytes} (hb : data.length < 2 ^ 31) : ∀ (l : List XText) (off : Nat), At data off (l.flatMap XText.encode) →
    (∀ t ∈ l, t.Valid) → (∀ t ∈ l, Reads abi t) → sstLoop abi data l.length off = .ok (l.map XText.chars) := by
  intro l
  induction l with
  | nil => intro off _ _ _; rfl
  | cons t l ih =>
    intro off h hv hw
    rw [List.flatMap_cons] at h
    obtain ⟨h1, h2⟩ := at_append h
    have hl := h1.length_le
    have he := encode_length t
    rw [List.length_cons, sstLoop, if_pos (by omega), rich_at h1 (hv t (by simp)) (hw t (by simp)) hb, Res.bind_ok]
    dsimp only
    rw [show u32 (off + t.encode.length) = off + t.encode.length from Nat.mod_eq_of_lt (by omega),
      ih _ h2 (fun q hq => hv q (by simp [hq])) (fun q hq => hw q (by simp [hq]))]
    rfl

/-! ## The record objects -/

/-- What the constructor keeps. -/
def Content.view : Content → View
  | .bof _ => .bof
  | .codePage n => .codePage n
  | .country a b => .country a b
  | .user s _ => .writeAccess s
  | .codeName s => .codeName s
  | .string s => .string s
  | .functionGroup s => .fnGroupName s
  | .functionGroups n => .builtInFnGroupCount n
  | .sheet d => .boundSheet8 d.name.text
  | .sharedStrings total l => .sst total l.length (l.map XText.chars)
  | .label l _ => .lbl l.name

/-- The record can be read: wide texts only where a wide character has two bytes. -/
def ReadsAll (abi : Abi) : Content → Prop
  | .sharedStrings _ l => ∀ t ∈ l, Reads abi t
  | .sheet d => d.Narrow ∨ abi.wcharBytes = 2
  | _ => True

theorem packed_two (l : List (Nat × Nat)) (n : Nat) (hl : ∀ f ∈ l, f.2 < 2 ^ f.1) (hw : widths l = n) : packed l < 2 ^ n :=
  hw ▸ packed_lt hl

theorem flag_lt (b : Bool) : (flag b).2 < 2 ^ (flag b).1 := by cases b <;> decide

theorem label_lbl {abi : Abi} {fuel : Nat} {l : Label} {formula : Bytes} (hn : l.name.length < 2 ^ 8)
    (hf : IsFormula formula) (hlen : (l.data formula).length < 2 ^ 16) (hfuel : (l.data formula).length < fuel) :
    mkLbl abi fuel (l.data formula) = .ok (.lbl l.name) := by
  have hself : At (l.data formula) 0 (leBytes 2 (packed l.flags) ++ [l.key, UInt8.ofNat l.name.length] ++
      leBytes 2 formula.length ++ leBytes 2 0 ++ leBytes 2 l.sheet ++ [0, 0, 0, 0] ++ [0] ++ l.name ++ formula) := Asf.at_self _
  have hdl : (l.data formula).length = 15 + l.name.length + formula.length := by
    simp [Label.data, leBytes_length]; omega
  generalize hd : l.data formula = data at *
  obtain ⟨h1, hform⟩ := at_append hself
  obtain ⟨h1, hname⟩ := at_append h1
  obtain ⟨h1, hflag⟩ := at_append h1
  obtain ⟨h1, -⟩ := at_append h1
  obtain ⟨h1, -⟩ := at_append h1
  obtain ⟨h1, -⟩ := at_append h1
  obtain ⟨h1, hcce⟩ := at_append h1
  obtain ⟨h1, hkey⟩ := at_append h1
  simp only [List.length_append, leBytes_length, List.length_cons, List.length_nil] at hform hname hflag hcce hkey
  have hcch := (at_cons (at_cons hkey).2).1
  have hnn : (UInt8.ofNat l.name.length).toNat = l.name.length := by
    rw [UInt8.toNat_ofNat']
    exact Nat.mod_eq_of_lt (by omega)
  obtain ⟨num, names, toks, ht, hbs⟩ := hf
  have hs : XLUnicodeStringNoCch abi data data.length 14 l.name.length = .ok (l.name, 1 + l.name.length) := by
    unfold XLUnicodeStringNoCch
    have hx : ExtractBits 0 1 1 = .ok 0 := by decide
    rw [if_neg (by omega), (at_cons hflag).1, Res.bind_ok, hx, Res.bind_ok]
    dsimp only
    rw [if_pos rfl, show u32 (14 + 1) = 15 from rfl, if_pos (by rw [show u32 (15 + l.name.length) = _ from Nat.mod_eq_of_lt (by omega)]; omega),
      rdRange_of_at hname rfl]
    rfl
  have htoks : toks.length ≤ formula.length := by
    rw [hbs]
    clear hbs hform hdl hcce
    induction toks with
    | nil => simp
    | cons t ts ih =>
      rw [List.flatMap_cons, List.length_append, List.length_cons]
      have := token_length (ht t (by simp))
      have := ih fun q hq => ht q (by simp [hq])
      omega
  obtain ⟨ps, hp, -⟩ := rgceLoop_tokens (b := data) (max := 15 + l.name.length + formula.length) abi ⟨num, fun _ => []⟩ names (by omega) toks fuel
    (15 + l.name.length) [] ht (by rw [← hbs]; exact Vba.at_cast hform (by omega)) (by rw [← hbs]) (by omega)
  have hR : Rgce.Parse abi fuel data (15 + l.name.length + formula.length) (15 + l.name.length) = .ok (ps, formula.length) := by
    unfold Rgce.Parse
    rw [hp, Res.bind_ok]
    dsimp only
    rw [List.nil_append]
    congr 2
    unfold sub32
    omega
  unfold mkLbl
  dsimp only
  rw [hcch, Res.bind_ok, hnn, hs, Res.bind_ok, rdRange_of_at hcce (by rw [leBytes_length]), Res.bind_ok]
  dsimp only
  rw [leVal_leBytes, Nat.mod_eq_of_lt (by omega), show u32 (14 + (1 + l.name.length)) = 15 + l.name.length by unfold u32; omega,
    show u32 (15 + l.name.length + formula.length) = 15 + l.name.length + formula.length from Nat.mod_eq_of_lt (by omega), hR, Res.bind_ok]
  dsimp only
  rw [show u32 (15 + l.name.length + formula.length) = 15 + l.name.length + formula.length from Nat.mod_eq_of_lt (by omega)]
  unfold RgbExtra
  rw [if_neg (by omega), rdRange_ok (by omega)]
  rfl

theorem content_class (c : Content) : (Tables.lookup biff8Classes c.type).getD [] = c.typeName := by
  have : ∀ e ∈ [((0x0809 : Nat), b!"BOF"), (0x0042, b!"CodePage"), (0x008C, b!"Country"), (0x005C, b!"WriteAccess"), (0x01BA, b!"CodeName"),
      (0x0207, b!"String"), (0x009A, b!"FnGroupName"), (0x009C, b!"BuiltInFnGroupCount"), (0x0085, b!"BoundSheet8"),
      (0x00FC, b!"SST"), (0x0018, b!"Lbl")], (Tables.lookup biff8Classes e.1).getD [] = e.2 := by decide +kernel
  cases c <;> exact this (_, _) (by simp)

theorem content_view {abi : Abi} {fuel : Nat} {c : Content} (hv : c.Valid) (hr : ReadsAll abi c) (hfuel : c.data.length < fuel) :
    simpleView abi fuel c.typeName c.data = .ok (Content.view c) := by
  obtain ⟨hlen, hv⟩ := hv
  have hs := Asf.at_self c.data
  cases c with
  | bof b => rfl
  | codePage n =>
    show mkCodePage _ = _
    obtain ⟨e, he, rfl⟩ := hv
    have : ∀ e ∈ codePageNames, e.1 < 2 ^ 16 := by decide
    unfold mkCodePage
    rw [Asf.ushort_at hs (this e he) (by omega)]
    rfl
  | country a b =>
    show mkCountry _ = _
    obtain ⟨⟨e, he, rfl⟩, ⟨f, hf, rfl⟩⟩ := hv
    have : ∀ e ∈ countryNames, e.1 < 2 ^ 16 := by decide
    obtain ⟨h1, h2⟩ := at_append hs
    rw [leBytes_length] at h2
    unfold mkCountry
    rw [Asf.ushort_at h1 (this e he) (by omega), Res.bind_ok, Asf.ushort_at h2 (this f hf) (by omega)]
    rfl
  | user s k =>
    show mkWriteAccess _ = _
    simp only [Content.data, List.length_append] at hlen
    unfold mkWriteAccess
    rw [xlString_at (at_append hs).1 (by omega) (by simp only [Content.data, List.length_append]; omega)]
    rfl
  | codeName s =>
    show mkCodeName _ = _
    simp only [Content.data, List.length_append] at hlen
    unfold mkCodeName
    rw [xlString_at hs (by omega) (by simp only [Content.data, List.length_append]; omega)]
    rfl
  | string s =>
    show mkString _ = _
    simp only [Content.data, List.length_append] at hlen
    unfold mkString
    rw [xlString_at hs (by omega) (by simp only [Content.data, List.length_append]; omega)]
    rfl
  | functionGroup s =>
    show mkFnGroupName _ = _
    simp only [Content.data, List.length_append] at hlen
    unfold mkFnGroupName
    rw [xlString_at hs (by omega) (by simp only [Content.data, List.length_append]; omega)]
    rfl
  | functionGroups n =>
    show mkBuiltInFnGroupCount _ = _
    unfold mkBuiltInFnGroupCount
    rw [Asf.ushort_at hs hv (by omega)]
    rfl
  | sheet d =>
    exact mkBoundSheet_decl abi hv hr
  | sharedStrings total l =>
    show mkSST abi _ = _
    obtain ⟨h1, h3⟩ := at_append hs
    obtain ⟨h1, h2⟩ := at_append h1
    rw [leBytes_length] at h2
    rw [List.length_append, leBytes_length, leBytes_length] at h3
    have hll : l.length < 2 ^ 16 := by
      have : ∀ l : List XText, l.length ≤ (l.flatMap XText.encode).length := by
        intro l
        induction l with
        | nil => simp
        | cons t l ih =>
          rw [List.flatMap_cons, List.length_append, List.length_cons]
          have := encode_length t
          omega
      have := this l
      simp only [Content.data, List.length_append] at hlen
      omega
    unfold mkSST
    rw [sint_at h1 hv.1 (by omega), Res.bind_ok, sint_at h2 (by omega) (by omega), Res.bind_ok,
      show ((l.length : Int) % 4294967296).toNat = l.length by omega, sst_at (by omega) l _ h3 hv.2 hr]
    rfl
  | label l formula => exact label_lbl hv.1 hv.2.2.2 hlen hfuel

theorem content_parse {abi : Abi} {fuel : Nat} (fmt : Fmt) {c : Content} (hv : c.Valid) (hr : ReadsAll abi c) (hfuel : c.data.length < fuel)
    {e : Eng} (he : e.version = 1536) :
    ParseRecord abi fmt fuel e c.type c.data = .ok (some (e.master, Rec.make c.type c.data (Content.view c))) := by
  unfold ParseRecord parseVersioned parseBiff8
  have hmem : c.typeName ∈ [b!"BOF", b!"CodePage", b!"Country", b!"WriteAccess", b!"CodeName", b!"String", b!"FnGroupName",
      b!"BuiltInFnGroupCount", b!"BoundSheet8", b!"SST", b!"Lbl"] := by cases c <;> simp [Content.typeName]
  have hne : ∀ n ∈ [b!"Formula", b!"ExternName", b!"LabelSst", b!"Continue"], c.typeName ≠ n :=
    (by decide : ∀ t ∈ [b!"BOF", b!"CodePage", b!"Country", b!"WriteAccess", b!"CodeName", b!"String", b!"FnGroupName",
      b!"BuiltInFnGroupCount", b!"BoundSheet8", b!"SST", b!"Lbl"], ∀ n ∈ [b!"Formula", b!"ExternName", b!"LabelSst", b!"Continue"],
      t ≠ n) _ hmem
  rw [if_pos he, content_class, if_neg (hne _ (by simp)), if_neg (hne _ (by simp)), if_neg (hne _ (by simp)), if_neg (hne _ (by simp)),
    content_view hv hr hfuel]
  rfl

end Fileid.Excel

namespace Fileid.Report

open Common Spec Spec.Report Spec.Biff Excel Props

/-- The member is read as the fact, in JSON and in XML. -/
def Says (f : Field) (p : Bytes × Fact) : Prop := FieldReads f (p.1, p.2.json) ∧ FieldReadsX f (p.2.xml p.1)

theorem numF_says {k : Bytes} {n m : Nat} (hk : jsonPlain k = true) (hk' : isName k = true) (h : n = m) : Says (numF k n) (k, .num m) := by
  subst h
  exact ⟨numF_reads hk, numFX_reads hk'⟩

/-- Flags: a bit field of one bit. -/
theorem toNat_lt (b : Bool) : b.toNat < 2 ^ 1 := by cases b <;> decide

theorem small_flags {a b : List (Nat × Nat)} {l : List (Nat × Nat)} {w v k : Nat} (hl : l = a ++ (w, v) :: b)
    (ha : ∀ f ∈ a, f.2 < 2 ^ f.1) (hv : v < 2 ^ w) (hk : k = widths a) (h16 : k + w ≤ 16) : bits (packed l % 2 ^ 16) k w = v := by
  subst hl hk
  rw [bits_mod h16, bits_packed ha hv]

/-- Every field in the list holds its value. -/
macro "fits" : tactic =>
  `(tactic| (simp only [List.mem_cons, List.not_mem_nil, or_false, forall_eq_or_imp, forall_eq, flag]
             repeat' apply And.intro
             all_goals first | exact toNat_lt _ | decide | omega))

theorem bof_fields {b : Bof} (h : Content.Valid (.bof b)) :
    bofFields b.data = .ok [
      numF b!"Version" b.version, numF b!"DocumentType" b.kind, .text b!"DocumentTypeStr" (GetBOFType b.kind),
      numF b!"RUPBuild" b.build, numF b!"RUPYear" b.year, numF b!"LastEditWindows" b.windows.toNat, numF b!"LastEditRisc" b.risc.toNat,
      numF b!"LastEditBeta" b.beta.toNat, numF b!"AnyEditWindows" b.anyWindows.toNat, numF b!"AnyEditRisc" b.anyRisc.toNat,
      numF b!"AnyEditMac" b.anyMac.toNat, numF b!"AnyEditBeta" b.anyBeta.toNat, numF b!"FailureOutOfMemory" b.outOfMemory.toNat,
      numF b!"FailureOutOfMemoryRender" b.outOfMemoryRender.toNat, numF b!"FontLimitHit" b.fontLimit.toNat,
      numF b!"HighestXLVersion" (b.highest % 2), numF b!"LowestBiff" b.lowest, numF b!"LastSavedXLVersion" b.last] := by
  obtain ⟨-, hv, hb, hy, hh, hlo, hla, e, he, hk⟩ := h
  have hkind : b.kind < 2 ^ 16 := by
    have : ∀ e ∈ partKinds, e.1 < 2 ^ 16 := by decide
    rw [← hk]; exact this e he
  have hs := Asf.at_self b.data
  have hlen : b.data.length = 16 := by simp [Bof.data, leBytes_length]
  have hs' : At b.data 0 (leBytes 2 b.version ++ leBytes 2 b.kind ++ leBytes 2 b.build ++ leBytes 2 b.year ++
      leBytes 4 (packed b.flags) ++ leBytes 4 (packed [(8, b.lowest), (4, b.last)])) := hs
  rw [leBytes_split (packed b.flags), leBytes_split (packed [(8, b.lowest), (4, b.last)])] at hs'
  obtain ⟨h1, hB⟩ := at_append hs'
  obtain ⟨h1, hA⟩ := at_append h1
  obtain ⟨h1, hY⟩ := at_append h1
  obtain ⟨h1, hBd⟩ := at_append h1
  obtain ⟨hV, hK⟩ := at_append h1
  simp only [List.length_append, leBytes_length] at hK hBd hY hA hB
  have hne : b.data ≠ [] := fun h => by rw [h] at hlen; simp at hlen
  have w0 := word_at (k := 14) hV (by omega)
  have w2 := word_at (k := 14) hK (by omega)
  have w4 := word_at (k := 14) hBd (by omega)
  have w6 := word_at (k := 14) hY (by omega)
  have w8 := word_at (k := 14) (at_append hA).1 (by omega)
  have w12 := word_at (k := 14) (at_append hB).1 (by omega)
  rw [Nat.mod_eq_of_lt hv] at w0
  rw [Nat.mod_eq_of_lt hkind] at w2
  rw [Nat.mod_eq_of_lt hb] at w4
  rw [Nat.mod_eq_of_lt hy] at w6
  simp only [Nat.zero_add, Nat.reduceAdd] at w0 w2 w4 w6 w8 w12
  unfold bofFields
  rw [if_neg hne, rdRange_ok (by omega), List.drop_zero, Res.bind_ok]
  dsimp only
  rw [w0, w2, w4, w6, w8, w12]
  have f0 : bits (packed b.flags % 2 ^ 16) 0 1 = b.windows.toNat :=
    small_flags (a := []) (b := b.flags.drop 1) rfl (by simp) (toNat_lt _) rfl (by decide)
  have f1 : bits (packed b.flags % 2 ^ 16) 1 1 = b.risc.toNat :=
    small_flags (a := [flag b.windows]) (b := b.flags.drop 2) rfl (by fits) (toNat_lt _) rfl (by decide)
  have f2 : bits (packed b.flags % 2 ^ 16) 2 1 = b.beta.toNat :=
    small_flags (a := [flag b.windows, flag b.risc]) (b := b.flags.drop 3) rfl (by fits) (toNat_lt _) rfl (by decide)
  have f3 : bits (packed b.flags % 2 ^ 16) 3 1 = b.anyWindows.toNat :=
    small_flags (a := [flag b.windows, flag b.risc, flag b.beta]) (b := b.flags.drop 4) rfl (by fits) (toNat_lt _) rfl (by decide)
  have f4 : bits (packed b.flags % 2 ^ 16) 4 1 = b.anyMac.toNat :=
    small_flags (a := [flag b.windows, flag b.risc, flag b.beta, flag b.anyWindows]) (b := b.flags.drop 5) rfl (by fits) (toNat_lt _) rfl (by decide)
  have f5 : bits (packed b.flags % 2 ^ 16) 5 1 = b.anyBeta.toNat :=
    small_flags (a := [flag b.windows, flag b.risc, flag b.beta, flag b.anyWindows, flag b.anyMac]) (b := b.flags.drop 6) rfl (by fits)
      (toNat_lt _) rfl (by decide)
  have f8 : bits (packed b.flags % 2 ^ 16) 8 1 = b.anyRisc.toNat :=
    small_flags (a := [flag b.windows, flag b.risc, flag b.beta, flag b.anyWindows, flag b.anyMac, flag b.anyBeta, (2, 0)])
      (b := b.flags.drop 8) rfl (by fits) (toNat_lt _) rfl (by decide)
  have f9 : bits (packed b.flags % 2 ^ 16) 9 1 = b.outOfMemory.toNat :=
    small_flags (a := [flag b.windows, flag b.risc, flag b.beta, flag b.anyWindows, flag b.anyMac, flag b.anyBeta, (2, 0), flag b.anyRisc])
      (b := b.flags.drop 9) rfl (by fits) (toNat_lt _) rfl (by decide)
  have f10 : bits (packed b.flags % 2 ^ 16) 10 1 = b.outOfMemoryRender.toNat :=
    small_flags (a := [flag b.windows, flag b.risc, flag b.beta, flag b.anyWindows, flag b.anyMac, flag b.anyBeta, (2, 0), flag b.anyRisc,
      flag b.outOfMemory]) (b := b.flags.drop 10) rfl (by fits) (toNat_lt _) rfl (by decide)
  have f13 : bits (packed b.flags % 2 ^ 16) 13 1 = b.fontLimit.toNat :=
    small_flags (a := [flag b.windows, flag b.risc, flag b.beta, flag b.anyWindows, flag b.anyMac, flag b.anyBeta, (2, 0), flag b.anyRisc,
      flag b.outOfMemory, flag b.outOfMemoryRender, (2, 0)]) (b := b.flags.drop 12) rfl (by fits) (toNat_lt _) rfl (by decide)
  have f14 : bits (packed b.flags % 2 ^ 16) 14 1 = b.highest % 2 := by
    rw [bits_mod (by omega)]
    exact bits_packed_low (a := [flag b.windows, flag b.risc, flag b.beta, flag b.anyWindows, flag b.anyMac, flag b.anyBeta, (2, 0), flag b.anyRisc,
      flag b.outOfMemory, flag b.outOfMemoryRender, (2, 0), flag b.fontLimit]) (b := []) (w := 4) (k := 1) (by fits) (by omega)
  have g0 : bits (packed [(8, b.lowest), (4, b.last)] % 2 ^ 16) 0 8 = b.lowest :=
    small_flags (a := []) (b := [(4, b.last)]) rfl (by simp) hlo rfl (by decide)
  have g8 : bits (packed [(8, b.lowest), (4, b.last)] % 2 ^ 16) 8 4 = b.last :=
    small_flags (a := [(8, b.lowest)]) (b := []) rfl (by fits) hla rfl (by decide)
  rw [f0, f1, f2, f3, f4, f5, f8, f9, f10, f13, f14, g0, g8]

theorem lbl_fields {l : Label} {formula : Bytes} (h : Content.Valid (.label l formula)) :
    lblFields (l.data formula) l.name = .ok [
      numF b!"fHidden" l.hidden.toNat, numF b!"fFunc" l.function.toNat, numF b!"fOB" l.ob.toNat, numF b!"fProc" l.proc.toNat,
      numF b!"fCalcExp" l.calcExp.toNat, numF b!"fBuiltin" l.builtin.toNat, numF b!"fGrp" l.group, numF b!"reserved1" 0,
      numF b!"fPublished" l.published.toNat, numF b!"fWorkbookParam" l.parameter.toNat, numF b!"chKey" l.key.toNat,
      numF b!"cch" l.name.length, numF b!"cce" formula.length, numF b!"reserved3" 0, numF b!"itab" l.sheet, numF b!"reserved4" 0,
      numF b!"reserved5" 0, numF b!"reserved6" 0, numF b!"reserved7" 0, .esc b!"name" l.name,
      .raw b!"\"namedparsedformula\":{}" b!"<NameParsedFormula></NameParsedFormula>"] := by
  obtain ⟨hlen, hn, hg, hsh, -⟩ := h
  have hs' : At (l.data formula) 0 (leBytes 2 (packed l.flags) ++ [l.key, UInt8.ofNat l.name.length] ++
      leBytes 2 formula.length ++ leBytes 2 0 ++ leBytes 2 l.sheet ++ [0, 0, 0, 0] ++ [0] ++ l.name ++ formula) := Asf.at_self _
  have hdl : (l.data formula).length = 15 + l.name.length + formula.length := by
    simp [Label.data, leBytes_length]; omega
  have hfl : formula.length < 2 ^ 16 := by
    have : (l.data formula).length < 2 ^ 16 := hlen
    omega
  obtain ⟨h1, -⟩ := at_append hs'
  obtain ⟨h1, -⟩ := at_append h1
  obtain ⟨h1, -⟩ := at_append h1
  obtain ⟨h1, hR⟩ := at_append h1
  obtain ⟨h1, hI⟩ := at_append h1
  obtain ⟨h1, h6⟩ := at_append h1
  obtain ⟨h1, hE⟩ := at_append h1
  obtain ⟨hF, hK⟩ := at_append h1
  simp only [List.length_append, leBytes_length, List.length_cons, List.length_nil, Nat.zero_add, Nat.reduceAdd] at hK hE h6 hI hR
  have hsplit : ∀ {i : Nat} {x : UInt8} {xs : Bytes}, At (l.data formula) i (x :: xs) → At (l.data formula) i [x] ∧ At (l.data formula) (i + 1) xs :=
    fun {i x xs} h => at_append (xs := [x]) h
  obtain ⟨c2, hK⟩ := hsplit hK
  obtain ⟨c3, -⟩ := hsplit hK
  obtain ⟨c10, hR⟩ := hsplit hR
  obtain ⟨c11, hR⟩ := hsplit hR
  obtain ⟨c12, hR⟩ := hsplit hR
  obtain ⟨c13, -⟩ := hsplit hR
  have b2 := byte_at (k := 14) c2 (by omega)
  have b3 := byte_at (k := 14) c3 (by omega)
  have b10 := byte_at (k := 14) c10 (by omega)
  have b11 := byte_at (k := 14) c11 (by omega)
  have b12 := byte_at (k := 14) c12 (by omega)
  have b13 := byte_at (k := 14) c13 (by omega)
  have w0 := word_at (k := 14) hF (by omega)
  have w4 := word_at (k := 14) hE (by omega)
  have w6 := word_at (k := 14) h6 (by omega)
  have w8 := word_at (k := 14) hI (by omega)
  rw [Nat.mod_eq_of_lt hfl] at w4
  rw [Nat.mod_eq_of_lt hsh] at w8
  have hnn : (UInt8.ofNat l.name.length).toNat = l.name.length := by
    rw [UInt8.toNat_ofNat']
    exact Nat.mod_eq_of_lt (by omega)
  unfold lblFields
  rw [rdRange_ok (by omega), List.drop_zero, Res.bind_ok]
  dsimp only
  rw [w0, w4, w6, w8, b2, b3, b10, b11, b12, b13, hnn]
  have f0 : bits (packed l.flags % 2 ^ 16) 0 1 = l.hidden.toNat :=
    small_flags (a := []) (b := l.flags.drop 1) rfl (by simp) (toNat_lt _) rfl (by decide)
  have f1 : bits (packed l.flags % 2 ^ 16) 1 1 = l.function.toNat :=
    small_flags (a := [flag l.hidden]) (b := l.flags.drop 2) rfl (by fits) (toNat_lt _) rfl (by decide)
  have f2 : bits (packed l.flags % 2 ^ 16) 2 1 = l.ob.toNat :=
    small_flags (a := [flag l.hidden, flag l.function]) (b := l.flags.drop 3) rfl (by fits) (toNat_lt _) rfl (by decide)
  have f3 : bits (packed l.flags % 2 ^ 16) 3 1 = l.proc.toNat :=
    small_flags (a := [flag l.hidden, flag l.function, flag l.ob]) (b := l.flags.drop 4) rfl (by fits) (toNat_lt _) rfl (by decide)
  have f4 : bits (packed l.flags % 2 ^ 16) 4 1 = l.calcExp.toNat :=
    small_flags (a := [flag l.hidden, flag l.function, flag l.ob, flag l.proc]) (b := l.flags.drop 5) rfl (by fits) (toNat_lt _) rfl (by decide)
  have f5 : bits (packed l.flags % 2 ^ 16) 5 1 = l.builtin.toNat :=
    small_flags (a := [flag l.hidden, flag l.function, flag l.ob, flag l.proc, flag l.calcExp]) (b := l.flags.drop 6) rfl (by fits)
      (toNat_lt _) rfl (by decide)
  have f6 : bits (packed l.flags % 2 ^ 16) 6 6 = l.group :=
    small_flags (a := [flag l.hidden, flag l.function, flag l.ob, flag l.proc, flag l.calcExp, flag l.builtin])
      (b := l.flags.drop 7) rfl (by fits) hg rfl (by decide)
  have f12 : bits (packed l.flags % 2 ^ 16) 12 1 = 0 :=
    small_flags (a := [flag l.hidden, flag l.function, flag l.ob, flag l.proc, flag l.calcExp, flag l.builtin, (6, l.group)])
      (b := l.flags.drop 8) rfl (by fits) (by decide) rfl (by decide)
  have f13 : bits (packed l.flags % 2 ^ 16) 13 1 = l.published.toNat :=
    small_flags (a := [flag l.hidden, flag l.function, flag l.ob, flag l.proc, flag l.calcExp, flag l.builtin, (6, l.group), (1, 0)])
      (b := l.flags.drop 9) rfl (by fits) (toNat_lt _) rfl (by decide)
  have f14 : bits (packed l.flags % 2 ^ 16) 14 1 = l.parameter.toNat :=
    small_flags (a := [flag l.hidden, flag l.function, flag l.ob, flag l.proc, flag l.calcExp, flag l.builtin, (6, l.group), (1, 0),
      flag l.published]) (b := []) rfl (by fits) (toNat_lt _) rfl (by decide)
  rw [f0, f1, f2, f3, f4, f5, f6, f12, f13, f14]
  rfl

theorem nameOf_agrees {α : Type} [DecidableEq α] {t u : List (α × Bytes)} {d : Bytes} (h : ∀ e ∈ t, nameOf u d e.1 = nameOf t [] e.1) {k : α}
    (hk : ∃ e ∈ t, e.1 = k) : nameOf u d k = nameOf t [] k := by
  obtain ⟨e, he, rfl⟩ := hk
  exact h e he

theorem country_name {n : Nat} (h : ∃ e ∈ countryNames, e.1 = n) : GetCountryName n = nameOf countryNames [] n := by
  unfold GetCountryName
  rw [lookup_nameOf]
  exact nameOf_agrees (by decide +kernel) h

theorem codePage_name {n : Nat} (h : ∃ e ∈ codePageNames, e.1 = n) : CPToString n = nameOf codePageNames [] n := by
  unfold CPToString
  rw [lookup_nameOf]
  exact nameOf_agrees (by decide +kernel) h

theorem bofType_name {n : Nat} (h : ∃ e ∈ partKinds, e.1 = n) : GetBOFType n = nameOf partKinds [] n := by
  obtain ⟨e, he, rfl⟩ := h
  exact (by decide : ∀ e ∈ partKinds, GetBOFType e.1 = nameOf partKinds [] e.1) e he

theorem typeName_eq (c : Content) : GetRecordTypeStr c.type = c.typeName := by
  have : ∀ e ∈ [((0x0809 : Nat), b!"BOF"), (0x0042, b!"CodePage"), (0x008C, b!"Country"), (0x005C, b!"WriteAccess"), (0x01BA, b!"CodeName"),
      (0x0207, b!"String"), (0x009A, b!"FnGroupName"), (0x009C, b!"BuiltInFnGroupCount"), (0x0085, b!"BoundSheet8"),
      (0x00FC, b!"SST"), (0x0018, b!"Lbl")], GetRecordTypeStr e.1 = e.2 := by decide +kernel
  cases c <;> exact this (_, _) (by simp)

theorem takeWhile_nul {s : Bytes} (h : 0 ∉ s) : s.takeWhile (· ≠ 0) = s := by
  induction s with
  | nil => rfl
  | cons c s ih =>
    rw [List.takeWhile_cons_of_pos (by have : c ≠ 0 := fun h0 => h (by simp [h0]); simpa using this), ih fun h0 => h (by simp [h0])]

theorem shown_text {s : Bytes} (h : 0 ∉ s) : shown s = .text s := by
  unfold shown
  rw [takeWhile_nul h]
  rfl

theorem esc_text {k s : Bytes} (hk : jsonPlain k = true) (h : 0 ∉ s) : FieldReads (.esc k s) (k, .text s) := by
  rw [← shown_text h]
  exact esc_reads hk

theorem clear_no_zero {s : Bytes} (h : Clear s) : 0 ∉ s := fun h0 => by have := (h 0 h0).1; simp at this

theorem clear_unescapes {s : Bytes} (h : Clear s) (h39 : 39 ∉ s) : XmlEscape s = s := by
  induction s with
  | nil => rfl
  | cons c s ih =>
    rw [XmlEscape_cons, ih (fun x hx => h x (by simp [hx])) fun hx => h39 (by simp [hx])]
    obtain ⟨h1, h2, h3, -, h5, h6, h7⟩ := h c (by simp)
    have h8 : c ≠ 39 := fun h0 => h39 (by simp [h0])
    have h9 : (iscntrl c || decide (c > 127)) = false := by
      have hc : ¬ c.toNat < 32 ∧ ¬ c.toNat = 127 ∧ ¬ c > 127 := ⟨by omega, by omega, fun h => by
        have : c.toNat > 127 := h
        omega⟩
      simp [iscntrl, UInt8.lt_iff_toNat_lt, ← UInt8.toNat_inj, hc]
    unfold xmlEscapeChar
    rw [if_neg h3, if_neg h5, if_neg h8, if_neg h7, if_neg h6, h9]
    rfl

theorem escX_leaf {k s : Bytes} (hk : isName k = true) (h : LegalText s ∧ 60 ∉ s ∧ 62 ∉ s) : FieldReadsX (.esc k s) (.leaf k s) := by
  obtain ⟨v, hv, cs, rfl, hc⟩ := escX_reads hk h.1.legal
  rw [hc fun c hc => ⟨fun h0 => h.2.1 (h0 ▸ hc), fun h0 => h.2.2 (h0 ▸ hc)⟩] at hv
  exact hv

theorem codePage_clear {n : Nat} (h : ∃ e ∈ codePageNames, e.1 = n) : Clear (nameOf codePageNames [] n) := by
  obtain ⟨e, he, rfl⟩ := h
  exact (by decide : ∀ e ∈ codePageNames, Clear (nameOf codePageNames [] e.1)) e he

theorem sheet_fields (d : SheetDecl) :
    boundSheet8Fields d.record.data d.name.text =
      .ok [.esc b!"Name" d.name.text, numF b!"State" (d.state.toNat % 4), numF b!"SheetType" d.kind.toNat] := by
  obtain ⟨a, b, c, x, h4⟩ := length_four (leBytes_length 4 d.offset)
  have hdata : d.record.data =
      a :: b :: c :: x :: d.state :: d.kind :: UInt8.ofNat d.name.count :: d.name.flags :: d.name.stored := by
    rw [decl_data, h4]; rfl
  unfold boundSheet8Fields
  rw [hdata]
  show Res.ok [_, numF _ (bits d.state.toNat 0 2), _] = _
  unfold bits
  rw [Nat.pow_zero, Nat.div_one]
  rfl

/-- The members are the facts of the record. -/
theorem content_json {abi : Abi} {fmt : Fmt} {c : Content} (hv : c.Valid) (hh : ∀ b, c = .bof b → b.highest < 2)
    (hj : c.InJson) :
    ∃ l, (Rec.make c.type c.data (Content.view c)).fields abi fmt = .ok l ∧
      Pointwise FieldReads l (c.facts.map fun p => (p.1, p.2.json)) := by
  obtain ⟨hu, hz⟩ := hj
  cases c with
  | bof b =>
    refine ⟨_, bof_fields hv, ?_⟩
    have hk := bofType_name hv.2.2.2.2.2.2.2
    rw [Nat.mod_eq_of_lt (hh b rfl), hk]
    have hc : Clear (nameOf partKinds [] b.kind) := by rw [← hk]; exact clear_bofType _
    show Pointwise FieldReads _ [_, _, _, _, _, _, _, _, _, _, _, _, _, _, _, _, _, _]
    read_fields
  | codePage n =>
    refine ⟨_, rfl, ?_⟩
    rw [codePage_name hv.2]
    exact .cons (numF_reads rfl) (.cons (esc_text rfl (clear_no_zero (codePage_clear hv.2))) .nil)
  | country a b =>
    refine ⟨_, rfl, ?_⟩
    have h1 := locale_reads (k := b!"WorkbookLocale") (n := a) rfl
    have h2 := locale_reads (k := b!"OSLocale") (n := b) rfl
    rw [country_name hv.2.1] at h1
    rw [country_name hv.2.2] at h2
    exact .cons h1 (.cons h2 .nil)
  | user s k => exact ⟨_, rfl, .cons (text_reads rfl (hu s (by simp [Content.unescaped]))) .nil⟩
  | codeName s => exact ⟨_, rfl, .cons (text_reads rfl (hu s (by simp [Content.unescaped]))) .nil⟩
  | functionGroup s => exact ⟨_, rfl, .cons (text_reads rfl (hu s (by simp [Content.unescaped]))) .nil⟩
  | string s =>
    refine ⟨_, rfl, .cons ?_ .nil⟩
    have := esc_text (k := b!"String") (s := s) rfl (hz s (by simp [Content.texts]))
    exact this
  | functionGroups n => exact ⟨_, rfl, .cons (numF_reads rfl) .nil⟩
  | sheet d =>
    exact ⟨_, sheet_fields d, .cons (esc_text rfl (hz d.name.text (by simp [Content.texts]))) (.cons (numF_reads rfl) (.cons (numF_reads rfl) .nil))⟩
  | sharedStrings total l =>
    refine ⟨_, rfl, .cons (numF_reads (k := b!"cstTotal") (n := total) rfl) (.cons (numF_reads (k := b!"cstUnique") (n := l.length) rfl) ?_)⟩
    show Pointwise FieldReads (if (l.map XText.chars).length > 0 then _ else []) _
    cases l with
    | nil => exact .nil
    | cons t l =>
      rw [if_pos (by simp)]
      refine .cons (raw_reads (k := b!"strings") rfl rfl (quoted_join (g := fun s => JVal.text s) fun s hs => ?_).reads) .nil
      have := hz s (by simpa [Content.texts] using hs)
      rw [← shown_text this]
      exact (jclosed_esc s).reads
  | label l formula =>
    refine ⟨_, lbl_fields hv, ?_⟩
    have hn : FieldReads (.raw b!"\"namedparsedformula\":{}" b!"<NameParsedFormula></NameParsedFormula>")
        (b!"namedparsedformula", .obj []) :=
      raw_reads (k := b!"namedparsedformula") rfl rfl (jclosed_obj .nil).reads
    have he := esc_text (k := b!"name") (s := l.name) rfl (hz _ (by simp [Content.texts]))
    show Pointwise FieldReads _ [_, _, _, _, _, _, _, _, _, _, _, _, _, _, _, _, _, _, _, _, _]
    repeat first
      | exact Pointwise.nil
      | (apply Pointwise.cons
         first | exact numF_reads rfl | exact he | exact hn)

/-- The elements are the facts of the record. -/
theorem content_xml {abi : Abi} {fmt : Fmt} {c : Content} (hv : c.Valid) (hh : ∀ b, c = .bof b → b.highest < 2)
    (hx : c.InXml) {l : List Field} (hl : (Rec.make c.type c.data (Content.view c)).fields abi fmt = .ok l) :
    Pointwise FieldReadsX l (c.facts.map fun p => p.2.xml p.1) := by
  cases c with
  | bof b =>
    have hk := bofType_name hv.2.2.2.2.2.2.2
    have := bof_fields hv
    rw [Nat.mod_eq_of_lt (hh b rfl), hk] at this
    obtain rfl := Res.ok.inj (hl.symm.trans this)
    have hc : Clear (nameOf partKinds [] b.kind) := by rw [← hk]; exact clear_bofType _
    show Pointwise FieldReadsX _ [_, _, _, _, _, _, _, _, _, _, _, _, _, _, _, _, _, _]
    read_elems
  | codePage n =>
    obtain rfl := Res.ok.inj hl
    rw [codePage_name hv.2]
    have hc := codePage_clear hv.2
    exact .cons (numFX_reads rfl) (.cons (escX_leaf rfl ⟨fun c h => by have := hc c h; unfold XmlUnit; omega,
      fun h => (hc _ h).2.2.2.2.2.1 rfl, fun h => (hc _ h).2.2.2.2.2.2 rfl⟩) .nil)
  | country a b =>
    obtain rfl := Res.ok.inj hl
    have h1 := localeX_reads (k := b!"WorkbookLocale") (n := a) rfl
    have h2 := localeX_reads (k := b!"OSLocale") (n := b) rfl
    rw [country_name hv.2.1] at h1
    rw [country_name hv.2.2] at h2
    exact .cons h1 (.cons h2 .nil)
  | user s k => obtain rfl := Res.ok.inj hl; exact .cons (textX_reads rfl hx) .nil
  | codeName s => obtain rfl := Res.ok.inj hl; exact .cons (textX_reads rfl hx) .nil
  | functionGroup s => obtain rfl := Res.ok.inj hl; exact .cons (textX_reads rfl hx) .nil
  | string s =>
    obtain rfl := Res.ok.inj hl
    have := xreads_elem (n := b!"String") (by decide) (cdata_reads s)
    rw [clear_unescapes hx.1 hx.2] at this
    refine .cons (XReads.of this ?_ rfl) .nil
    simp only [Field.toXml, elemText, List.append_assoc, clear_unescapes hx.1 hx.2, List.cons_append, List.nil_append]
  | functionGroups n => obtain rfl := Res.ok.inj hl; exact .cons (numFX_reads rfl) .nil
  | sheet d =>
    obtain rfl := Res.ok.inj (hl.symm.trans (sheet_fields d))
    exact .cons (escX_leaf rfl (hx d.name.text (by simp [Content.texts]))) (.cons (numFX_reads rfl) (.cons (numFX_reads rfl) .nil))
  | sharedStrings total l =>
    obtain rfl := Res.ok.inj hl
    refine .cons (numFX_reads (k := b!"cstTotal") (n := total) rfl) (.cons (numFX_reads (k := b!"cstUnique") (n := l.length) rfl) ?_)
    have hex : ∀ s ∈ l.map XText.chars, XReads (b!"<string>" ++ XmlEscape s ++ b!"</string>") [.leaf b!"string" s] := by
      intro s hs
      refine XReads.of (escX_leaf (k := b!"string") (s := s) rfl (hx s (by simpa [Content.texts] using hs))) ?_ rfl
      simp only [Field.toXml, List.append_assoc, List.cons_append, List.nil_append]
    have h1 : XReads ((l.map XText.chars).map (fun s => b!"<string>" ++ XmlEscape s ++ b!"</string>")).flatten
        ((l.map XText.chars).map (.leaf b!"string")) := xreads_flatten (pointwise_map hex)
    have h2 := filled_reads (k := b!"strings") (l := l.map XText.chars)
      (j := b!"\"strings\":[" ++ vectorJoin ((l.map XText.chars).map JsonEscape) b!"," true ++ b!"]")
      (x := b!"<strings>" ++ ((l.map XText.chars).map (fun s => b!"<string>" ++ XmlEscape s ++ b!"</string>")).flatten ++ b!"</strings>")
      (by decide) (by simp) (by simp only [elemText, List.append_assoc, List.cons_append, List.nil_append]) h1
    cases l with
    | nil => exact .nil
    | cons t l => exact h2
  | label l formula =>
    obtain rfl := Res.ok.inj (hl.symm.trans (lbl_fields hv))
    have hn : FieldReadsX (.raw b!"\"namedparsedformula\":{}" b!"<NameParsedFormula></NameParsedFormula>")
        (.elem b!"NameParsedFormula" []) :=
      XReads.of (xreads_elem (n := b!"NameParsedFormula") (by decide) xreads_nil) rfl rfl
    have he := escX_leaf (k := b!"name") (s := l.name) rfl (hx _ (by simp [Content.texts]))
    show Pointwise FieldReadsX _ [_, _, _, _, _, _, _, _, _, _, _, _, _, _, _, _, _, _, _, _, _]
    repeat first
      | exact Pointwise.nil
      | (apply Pointwise.cons
         first | exact numFX_reads rfl | exact he | exact hn)

end Fileid.Report
