import Verif.Lemmas.RecordsMore
import Verif.Props.Excel
import Verif.Props.Records

/-!
# C96: further records of a workbook, most of which are shown wrongly
-/

namespace Fileid.Props

open Common Spec Spec.Biff Spec.Report Excel ExcelTables Report

/-- C96 for the record kinds of `Other`, in a BIFF8 stream that ends with one to four further bytes: the record is listed
behind the records before it, and its entry, in JSON and in XML, is a document that says exactly what `Other.Shown` states.
This is what the record says (`Other.Facts`) for references to the workbook itself (`C96_self`), but not in general: see
below. -/
theorem C96_other_shown_partial (abi : Abi) (fmt : Fmt) (fuel : Nat) (b0 : Record) (before after : List Record) (o : Other) (tail : Bytes)
    (e : Eng)
    (hv : ∀ r ∈ b0 :: before ++ o.record :: after, r.Valid ∧ r.type ≠ filePassType)
    (hb : b0.type ∈ bofTypes ∧ 2 ≤ b0.data.length ∧ bofVersion b0.data = 0x0600)
    (hlen : (stream (b0 :: before ++ o.record :: after) ++ tail).length + 4 ≤ 2 ^ 32) (ht : 0 < tail.length ∧ tail.length ≤ 4)
    (ho : o.Valid) (hnc : ∀ r ∈ after.takeWhile (·.type ∈ interpreted), r.type ≠ continueType)
    (h : ParseStream abi fmt fuel (stream (b0 :: before ++ o.record :: after) ++ tail) = (e, .ok ())) :
    ∃ a q b kept facts json xml, e.master = a ++ q :: b ∧ kept.Sublist (b0 :: before) ∧
      ((b0 :: before).filter fun r => r.type ∉ interpreted).Sublist kept ∧ kept.length = a.length ∧ Other.Shown o facts ∧
      q.toJson abi fmt = .ok json ∧ jsonDocument json = some (o.json facts).events ∧
      q.toXml abi fmt = .ok xml ∧ xmlDocument xml = some (o.xml facts).events := by
  obtain ⟨v, hview, hs⟩ := other_shown abi fuel ho
  obtain ⟨l, facts, hl, hsay, hf⟩ := hs fmt
  obtain ⟨a, b, kept, hm, k1, k2, k3⟩ := record_listed (r := o.record) hv hb hlen ht (fun e he => other_parse hview e he) hnc h
  obtain ⟨json, j1, j2⟩ := entry_json (other_class o).2 hl (says_json hsay)
  obtain ⟨xml, x1, x2⟩ := entry_xml (other_class o).2 hl (says_xml hsay)
  exact ⟨a, _, b, kept, facts, json, xml, hm, k1, k2, k3, hf, j1, j2.document, x1, x2⟩

def sampleRow : Row :=
  { row := 3, first := 1, last := 4, height := 255, unused := 0, level := 2, collapsed := true, hidden := false, manual := true,
    formatted := false, format := 15, above := false, below := true, phonetic := false }

def sampleArea : Area :=
  { fore := (255, 128, 0), back := (0, 0, 255), pattern := 1, auto := true, invert := true, foreIndex := 9, backIndex := 77 }

def sampleOthers : List Other :=
  [.self 3, .protect true, .row sampleRow, .blanks 3 2 [15, 16, 17], .number 3 1 15 true 725, .area sampleArea]

/-- The records of the sample are valid. -/
theorem sampleOthers_valid : ∀ o ∈ sampleOthers, o.Valid := by
  intro o ho
  simp only [sampleOthers, List.mem_cons, List.not_mem_nil, or_false] at ho
  rcases ho with rfl | rfl | rfl | rfl | rfl | rfl
  · exact ⟨by decide +kernel, by show 3 < 2 ^ 16; decide⟩
  · exact ⟨by decide +kernel, trivial⟩
  · exact ⟨by decide +kernel, by decide, by decide, by decide, by decide, by decide, by decide, by decide⟩
  · exact ⟨by decide +kernel, by decide, by decide, by decide, by decide⟩
  · exact ⟨by decide +kernel, by decide, by decide, by decide, by decide⟩
  · exact ⟨by decide +kernel, by decide, by decide, by decide⟩

/-- The number in B4 of the sample meets the hypotheses of `C96_other_shown_partial`. -/
example : ∃ q facts, q ∈ (ParseStream Abi.linux Fmt.zero 999
      (stream ((Content.bof sampleBof).record :: sampleOthers.map Other.record) ++ [0])).1.master ∧
    Other.Shown (.number 3 1 15 true 725) facts ∧
    ∃ t, q.toJson Abi.linux Fmt.zero = .ok t ∧ jsonDocument t = some ((Other.number 3 1 15 true 725).json facts).events := by
  have hx : (ParseStream Abi.linux Fmt.zero 999
      (stream ((Content.bof sampleBof).record :: sampleOthers.map Other.record) ++ [0])).2 = .ok () := by decide +kernel
  have hs : (Content.bof sampleBof).record :: (sampleOthers.take 4).map Other.record ++ (Other.number 3 1 15 true 725).record ::
      (sampleOthers.drop 5).map Other.record = (Content.bof sampleBof).record :: sampleOthers.map Other.record := rfl
  obtain ⟨a, q, b, kept, facts, json, xml, hm, _, _, _, hf, h1, h2, _⟩ := C96_other_shown_partial Abi.linux Fmt.zero 999
    (Content.bof sampleBof).record ((sampleOthers.take 4).map Other.record) ((sampleOthers.drop 5).map Other.record)
    (.number 3 1 15 true 725) [0]
    (ParseStream Abi.linux Fmt.zero 999 (stream ((Content.bof sampleBof).record :: sampleOthers.map Other.record) ++ [0])).1
    (by unfold Record.Valid; decide +kernel) ⟨by decide, by decide +kernel, by decide +kernel⟩ (by decide +kernel) (by decide)
    (sampleOthers_valid _ (by simp [sampleOthers])) (by decide +kernel) (by rw [hs]; exact pair_eq hx)
  exact ⟨q, facts, by rw [hm]; simp, hf, json, h1, h2⟩

/-- C96 holds of references to the workbook itself. -/
theorem C96_self (sheets : Nat) (facts : List (Bytes × Fact)) (h : Other.Shown (.self sheets) facts) : Other.Facts (.self sheets) facts := by
  cases h
  exact .self

/-! ## Where it is false -/

/-- C96 is false of the protection of windows: the two bytes of the number are swapped, so that 1 is shown as 256. -/
theorem C96_protect_wrong (facts : List (Bytes × Fact)) (h : Other.Shown (.protect true) facts) :
    facts = [(b!"fLockWn", .num 256)] ∧ ¬ Other.Facts (.protect true) facts := by
  cases h
  refine ⟨rfl, fun hf => ?_⟩
  generalize hx : [(b!"fLockWn", Fact.num (swapped (true).toNat))] = l at hf
  cases hf
  injection hx with hx
  injection hx with _ hx
  injection hx with hx
  exact absurd hx (by decide)

/-- C96 is false of every row that has a height: it is shown as that of the last column, the last column as the first
(each with its bytes swapped), and 0 as the height. -/
theorem C96_row_wrong (r : Row) (facts : List (Bytes × Fact)) (hr : r.height ≠ 0) (h : Other.Shown (.row r) facts) :
    (b!"colMic", Fact.num (swapped r.last)) ∈ facts ∧ (b!"colMac", Fact.num (swapped r.height)) ∈ facts ∧
      (b!"miyRw", Fact.num 0) ∈ facts ∧ ¬ Other.Facts (.row r) facts := by
  cases h
  refine ⟨by simp, by simp, by simp, fun hf => ?_⟩
  generalize hx : [(b!"rw", Fact.num r.row), _, _, _, _, _, _, _, _, _, _, _, _, _, _, _, _, _] = l at hf
  cases hf
  injection hx with _ hx
  injection hx with _ hx
  injection hx with _ hx
  injection hx with hx _
  injection hx with _ hx
  injection hx with hx
  exact hr hx.symm

example : sampleRow.height ≠ 0 := by decide

/-- C96 is false of the format of a filled region whose pattern is solid (1), and of the flags of every region. -/
theorem C96_area_wrong (a : Area) (facts : List (Bytes × Fact)) (ha : a.pattern = 1 ∨ a.auto = true ∨ a.invert = true)
    (h : Other.Shown (.area a) facts) :
    (b!"fls", Fact.num (swapped a.pattern)) ∈ facts ∧ (b!"reserved", Fact.num (a.auto.toNat + 2 * a.invert.toNat)) ∈ facts ∧
      ¬ Other.Facts (.area a) facts := by
  cases h
  refine ⟨by simp, by simp, fun hf => ?_⟩
  generalize hx : [(b!"rgbFore", Fact.color _ _ _ _), _, _, _, _, _, _, _] = l at hf
  cases hf
  injection hx with _ hx
  injection hx with _ hx
  injection hx with h2 hx
  injection hx with _ hx
  injection hx with _ hx
  injection hx with h5 hx
  injection h2 with _ h2
  injection h2 with h2
  injection h5 with _ h5
  injection h5 with h5
  rcases ha with ha | ha | ha
  · rw [ha] at h2
    exact absurd h2 (by decide)
  · rw [ha] at h5
    simp at h5
  · rw [ha] at h5
    simp at h5

example : sampleArea.pattern = 1 := rfl

/-- C96 is false of the columns of blank cells: those to their left are shown. The formats are right. -/
theorem C96_blanks_wrong (row column : Nat) (formats : List Nat) (facts : List (Bytes × Fact)) (h : Other.Shown (.blanks row column formats) facts) :
    (b!"rgixfe", Fact.nums b!"ixfe" formats) ∈ facts ∧ ¬ Other.Facts (.blanks row column formats) facts := by
  cases h with
  | @blanks _ _ _ first last _ h1 _ =>
    refine ⟨by simp, fun hf => ?_⟩
    generalize hx : [(b!"rw", Fact.num row), _, _, _] = l at hf
    cases hf with
    | @blanks _ _ _ first' last' h2 _ =>
      injection hx with _ hx
      injection hx with hx _
      injection hx with _ hx
      injection hx with hx
      subst hx
      have := h2.2
      omega

/-- C96 is false of every cell with a whole number: the cell to its left is shown (C51; the values: C53). -/
theorem C96_number_wrong (row column format value : Nat) (facts : List (Bytes × Fact))
    (h : Other.Shown (.number row column format false value) facts) : ¬ Other.Facts (.number row column format false value) facts := by
  cases h with
  | @number _ _ _ _ _ letters hc hn =>
    intro hf
    generalize hx : [(b!"rw", Fact.num row), _, _, _, _, _, _, _] = l at hf
    cases hf with
    | @number _ _ _ _ cell hcell _ =>
      injection hx with _ hx
      injection hx with _ hx
      injection hx with _ hx
      injection hx with _ hx
      injection hx with _ hx
      injection hx with _ hx
      injection hx with hx _
      injection hx with _ hx
      injection hx with hx
      subst hx
      obtain ⟨l, e, hl, hn'⟩ := hcell
      obtain ⟨a, b⟩ := letters_split hc hl.2 (digits_of_readNumeral (readNumeral_dec _)) (digits_of_readNumeral (readNumeral_dec _)) e
      rw [← a, hn] at hn'
      omega

/-- C96 is false of the flags of a name in another workbook: whether it stands for an icon is not shown, but whether it
is built in, a second time. The others are right, and so is the name of a function of an add-in (which is shown if the
nearest `SupBook` record before is for add-ins). -/
theorem C96_icon_wrong (abi : Abi) (fmt : Fmt) (x : Extern) (name rest : Bytes) (last : Option Rec) (hf : x.format < 2 ^ 10)
    (hn : name.length < 2 ^ 8) (hd : (x.data name rest).length < 2 ^ 16) :
    ∃ v more, mkExternName abi (x.data name rest) last = .ok v ∧
      (Rec.make 0x0023 (x.data name rest) v).fields abi fmt = .ok ([
        numF b!"fBuiltin" x.builtin.toNat, numF b!"fWantAdvise" x.advise.toNat, numF b!"fWantPict" x.picture.toNat,
        numF b!"fOle" x.ole.toNat, numF b!"fOleLink" x.oleLink.toNat, numF b!"cf" x.format, numF b!"fIcon" x.builtin.toNat] ++
        more) ∧
      ((∃ a p s, last.map Rec.view = some (.supBook a 0x3A01 p s)) → more = [.text b!"addinUdf" name]) ∧
      ((¬ ∃ a p s, last.map Rec.view = some (.supBook a 0x3A01 p s)) → more = []) := by
  have hs : At (x.data name rest) 0 (leBytes 2 (packed x.flags)) := ⟨[], _, by unfold Extern.data; simp; rfl, rfl⟩
  have h6 : At (x.data name rest) 6 ([UInt8.ofNat name.length, 0] ++ name) :=
    ⟨leBytes 2 (packed x.flags) ++ [0, 0, 0, 0], rest, by simp [Extern.data], by simp [leBytes_length]⟩
  have hl : (x.data name rest).length = 8 + name.length + rest.length := by simp [Extern.data, leBytes_length]; omega
  have hfields : ∀ a, (Rec.make 0x0023 (x.data name rest) (.externName a)).fields abi fmt = .ok ([
        numF b!"fBuiltin" x.builtin.toNat, numF b!"fWantAdvise" x.advise.toNat, numF b!"fWantPict" x.picture.toNat,
        numF b!"fOle" x.ole.toNat, numF b!"fOleLink" x.oleLink.toNat, numF b!"cf" x.format, numF b!"fIcon" x.builtin.toNat] ++
        (match a with | some a => [.text b!"addinUdf" a] | none => [])) := by
    intro a
    show externNameFields (x.data name rest) a = _
    unfold externNameFields
    rw [rdRange_of_at (n := 2) hs (by rw [leBytes_length]), Res.bind_ok]
    dsimp only
    rw [leVal_leBytes]
    rw [show bits (packed x.flags % 2 ^ (8 * 2)) 0 1 = x.builtin.toNat from
        small_flags (a := []) (b := x.flags.drop 1) rfl (by simp) (toNat_lt _) rfl (by decide),
      show bits (packed x.flags % 2 ^ (8 * 2)) 1 1 = x.advise.toNat from
        small_flags (a := [flag x.builtin]) (b := x.flags.drop 2) rfl (by fits) (toNat_lt _) rfl (by decide),
      show bits (packed x.flags % 2 ^ (8 * 2)) 2 1 = x.picture.toNat from
        small_flags (a := [flag x.builtin, flag x.advise]) (b := x.flags.drop 3) rfl (by fits) (toNat_lt _) rfl (by decide),
      show bits (packed x.flags % 2 ^ (8 * 2)) 3 1 = x.ole.toNat from
        small_flags (a := [flag x.builtin, flag x.advise, flag x.picture]) (b := x.flags.drop 4) rfl (by fits) (toNat_lt _) rfl (by decide),
      show bits (packed x.flags % 2 ^ (8 * 2)) 4 1 = x.oleLink.toNat from
        small_flags (a := [flag x.builtin, flag x.advise, flag x.picture, flag x.ole]) (b := x.flags.drop 5) rfl (by fits) (toNat_lt _) rfl (by decide),
      show bits (packed x.flags % 2 ^ (8 * 2)) 5 10 = x.format from
        small_flags (a := [flag x.builtin, flag x.advise, flag x.picture, flag x.ole, flag x.oleLink]) (b := x.flags.drop 6) rfl (by fits) hf rfl
          (by decide)]
    cases a <;> rfl
  have hnn : (UInt8.ofNat name.length).toNat = name.length := by
    rw [UInt8.toNat_ofNat']
    exact Nat.mod_eq_of_lt (by omega)
  by_cases hsb : ∃ a p s, last.map Rec.view = some (.supBook a 0x3A01 p s)
  · refine ⟨.externName (some name), _, ?_, hfields _, fun _ => rfl, fun h => absurd hsb h⟩
    · obtain ⟨a, p, s, hsb⟩ := hsb
      obtain ⟨h6, h8⟩ := at_append h6
      obtain ⟨r6, h7⟩ := at_cons h6
      obtain ⟨r7, -⟩ := at_cons h7
      obtain ⟨u, hu⟩ := ends_uint (b := x.data name rest) (off := 2) (e := true) (by omega) hd
      have hx : ExtractBits 0 1 1 = .ok 0 := by decide
      unfold mkExternName
      rw [hsb]
      dsimp only
      rw [if_pos rfl, hu, Res.bind_ok]
      unfold ShortXLUnicodeString
      rw [r6, Res.bind_ok, show u32 (6 + 1) = 6 + 1 from rfl, r7, Res.bind_ok, hx, Res.bind_ok, if_pos rfl, hnn,
        show u32 (6 + 2) = 6 + ([UInt8.ofNat name.length, 0] : Bytes).length from rfl, rdRange_of_at h8 rfl]
      rfl
  · refine ⟨.externName none, _, ?_, hfields _, fun h => absurd h hsb, fun _ => rfl⟩
    · unfold mkExternName
      split
      · next a cch p s hv =>
        rw [if_neg (fun h => hsb ⟨a, p, s, by rw [hv, h]⟩), rd_lt (by omega)]
        rfl
      · rfl

/-- A name for an icon that is kept up to date. -/
def sampleExtern : Extern :=
  { builtin := false, advise := true, picture := false, ole := false, oleLink := true, format := 2, icon := true }

example : sampleExtern.format < 2 ^ 10 ∧ (b!"Rates" : Bytes).length < 2 ^ 8 ∧ (sampleExtern.data b!"Rates" []).length < 2 ^ 16 :=
  ⟨by decide, by decide, by decide +kernel⟩

/-- C96 is false of the row and column shown for a formula: they are taken from a field without meaning (the cell is
shown rightly under another name, C51). The flags are right. -/
theorem C96_formula_flags_wrong (abi : Abi) (fmt : Fmt) (fuel : Nat) (names : Nat → Nat → Option Bytes) (head : Bytes) (f : FormulaFlags)
    (rest : Bytes) (v : View) (hh : head.length = 14) (h : mkFormula abi fmt fuel names (head ++ f.data ++ rest) = .ok v) :
    ∃ cell value formula, (Rec.make 0x0006 (head ++ f.data ++ rest) v).fields abi fmt = .ok [
      numF b!"fAlwaysCalc" f.always.toNat, numF b!"fCaclOnLoad" 0, numF b!"fFill" f.fill.toNat, numF b!"fShrFmla" f.shared.toNat,
      numF b!"fNeedBuild" 0, numF b!"fClearErrors" f.clear.toNat, numF b!"reserved3" 0,
      numF b!"rw" (f.cache % 65536), numF b!"col" (f.cache / 65536 % 256),
      numF b!"fIamNotTop" (f.cache / 16777216 % 2), numF b!"fNotNull" (f.cache / 33554432 % 2), numF b!"fEnt" (f.cache / 67108864 % 2),
      numF b!"itab" (f.cache / 134217728 % 32),
      .text b!"Cell" cell, .esc b!"Value" value, .esc b!"FormulaString" formula] := by
  have hat : At (head ++ f.data ++ rest) 14 f.data := ⟨head, rest, by simp, hh⟩
  generalize head ++ f.data ++ rest = data at *
  unfold mkFormula at h
  dsimp only at h
  obtain ⟨rw', _, h⟩ := bind_ok_inv h
  obtain ⟨col', _, h⟩ := bind_ok_inv h
  obtain ⟨ix', _, h⟩ := bind_ok_inv h
  obtain ⟨v1, _, h⟩ := bind_ok_inv h
  obtain ⟨_, _, h⟩ := bind_ok_inv h
  obtain ⟨v2, _, h⟩ := bind_ok_inv h
  rw [rdRange_of_at (n := 6) hat (by simp [FormulaFlags.data, leBytes_length]), Res.bind_ok] at h
  obtain ⟨_, _, h⟩ := bind_ok_inv h
  obtain ⟨rg, _, h⟩ := bind_ok_inv h
  obtain ⟨_, _, h⟩ := bind_ok_inv h
  injection h with h
  subst h
  refine ⟨cellRef rw' col', formulaValue fmt (v1 ++ v2), ToTextString fmt names rg.1, ?_⟩
  show Res.ok (formulaFields _ _ _ _ _ _) = _
  unfold formulaFields
  dsimp only
  have hself : At f.data 0 (leBytes 2 (packed f.flags) ++ leBytes 4 f.cache) := Asf.at_self _
  rw [leBytes_split] at hself
  obtain ⟨a0, q⟩ := at_append hself
  obtain ⟨a2, a4⟩ := at_append q
  simp only [leBytes_length, Nat.zero_add, Nat.reduceAdd] at a2 a4
  have hlen : f.data.length = 6 := by simp [FormulaFlags.data, leBytes_length]
  have w0 := word_at (k := 6) a0 (by omega)
  have w2 := word_at (k := 6) a2 (by omega)
  have w4 := word_at (k := 6) a4 (by omega)
  rw [List.take_of_length_le (l := f.data) (i := 6) (by omega)] at w0 w2 w4
  rw [w0, w2, w4]
  rw [show bits (packed f.flags % 2 ^ 16) 0 1 = f.always.toNat from
      small_flags (a := []) (b := f.flags.drop 1) rfl (by simp) (toNat_lt _) rfl (by decide),
    show bits (packed f.flags % 2 ^ 16) 1 1 = 0 from
      small_flags (a := [flag f.always]) (b := f.flags.drop 2) rfl (by fits) (by decide) rfl (by decide),
    show bits (packed f.flags % 2 ^ 16) 2 1 = f.fill.toNat from
      small_flags (a := [flag f.always, (1, 0)]) (b := f.flags.drop 3) rfl (by fits) (toNat_lt _) rfl (by decide),
    show bits (packed f.flags % 2 ^ 16) 3 1 = f.shared.toNat from
      small_flags (a := [flag f.always, (1, 0), flag f.fill]) (b := f.flags.drop 4) rfl (by fits) (toNat_lt _) rfl (by decide),
    show bits (packed f.flags % 2 ^ 16) 4 1 = 0 from
      small_flags (a := [flag f.always, (1, 0), flag f.fill, flag f.shared]) (b := f.flags.drop 5) rfl (by fits) (by decide) rfl (by decide),
    show bits (packed f.flags % 2 ^ 16) 5 1 = f.clear.toNat from
      small_flags (a := [flag f.always, (1, 0), flag f.fill, flag f.shared, (1, 0)]) (b := f.flags.drop 6) rfl (by fits) (toNat_lt _) rfl (by decide),
    show bits (packed f.flags % 2 ^ 16) 6 10 = 0 from
      small_flags (a := [flag f.always, (1, 0), flag f.fill, flag f.shared, (1, 0), flag f.clear]) (b := []) rfl (by fits) (by decide) rfl (by decide),
    show f.cache % 2 ^ 16 = f.cache % 65536 from rfl,
    show bits (f.cache / 2 ^ 16 % 2 ^ 16) 0 8 = f.cache / 65536 % 256 by unfold bits; omega,
    show bits (f.cache / 2 ^ 16 % 2 ^ 16) 8 1 = f.cache / 16777216 % 2 by unfold bits; omega,
    show bits (f.cache / 2 ^ 16 % 2 ^ 16) 9 1 = f.cache / 33554432 % 2 by unfold bits; omega,
    show bits (f.cache / 2 ^ 16 % 2 ^ 16) 10 1 = f.cache / 67108864 % 2 by unfold bits; omega,
    show bits (f.cache / 2 ^ 16 % 2 ^ 16) 11 5 = f.cache / 134217728 % 32 by unfold bits; omega]

/-- The formula 7 in A1, always calculated. -/
example : ∃ v, mkFormula Abi.linux Fmt.zero 9 (fun _ _ => none)
    ([0, 0, 0, 0, 15, 0, 0, 0, 0, 0, 0, 0, 0, 0] ++ FormulaFlags.data ⟨true, false, false, false, 0xFD000000⟩ ++ [3, 0, 0x1E, 7, 0]) = .ok v := by
  exact ⟨_, rfl⟩

end Fileid.Props
