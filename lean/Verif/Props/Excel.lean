import Verif.Lemmas.Excel

/-!
# Properties of workbooks: columns, cells and numbers (C50, C51, C53)
-/

namespace Fileid.Props

open Common Spec Excel

/-! ## C50 column names -/

/-- C50: the name of column `n` is a word of capital letters whose number is `n`. -/
theorem C50_name (n : Nat) (h : 1 ≤ n) (_ : n ≤ 65535) :
    IsColumnName (ColNumToName n) ∧ columnNumber (ColNumToName n) = n :=
  ⟨⟨ColNumToName_ne_nil h, (ColNumToName_spec n).1⟩, (ColNumToName_spec n).2⟩

/-- C50: it is the only such word, so it is the standard name. -/
theorem C50_standard (n : Nat) (h : 1 ≤ n) (h2 : n ≤ 65535) (s : Bytes) :
    (IsColumnName s ∧ columnNumber s = n) ↔ s = ColNumToName n := by
  constructor
  · rintro ⟨⟨_, h1⟩, h2⟩
    rw [← h2, columnNumber_unique s h1]
  · rintro rfl
    exact C50_name n h h2

/-- C50: different columns have different names. -/
theorem C50_injective (m n : Nat) (h : ColNumToName m = ColNumToName n) : m = n := by
  rw [← (ColNumToName_spec m).2, h, (ColNumToName_spec n).2]

/-- C50: there is no name for column 0. -/
theorem C50_zero : ColNumToName 0 = [] := rfl

example : ColNumToName 1 = b!"A" ∧ ColNumToName 26 = b!"Z" ∧ ColNumToName 27 = b!"AA" ∧
    ColNumToName 256 = b!"IV" ∧ ColNumToName 16384 = b!"XFD" := by decide

/-! ## C51 cell references -/

theorem digits_of_readNumeral {s : Bytes} {n : Nat} (h : readNumeral 10 s = some n) :
    s ≠ [] ∧ ∀ c ∈ s, 48 ≤ c.toNat ∧ c.toNat ≤ 57 := by
  unfold readNumeral at h
  split at h
  · simp at h
  · refine ⟨by assumption, ?_⟩
    have key : ∀ (s : Bytes) (a n : Nat), readDigits 10 a s = some n → ∀ c ∈ s, 48 ≤ c.toNat ∧ c.toNat ≤ 57 := by
      intro s
      induction s with
      | nil => intro a n _ c hc; simp at hc
      | cons x xs ih =>
        intro a n h c hc
        unfold readDigits at h
        split at h
        · rename_i d hd
          split at h
          · rename_i hlt
            rcases List.mem_cons.1 hc with e | e
            · subst e
              unfold digitVal at hd
              split at hd
              · omega
              · split at hd
                · simp at hd; omega
                · split at hd
                  · simp at hd; omega
                  · simp at hd
            · exact ih _ _ h c e
          · simp at h
        · simp at h
    exact key s 0 n h

theorem letters_split {l l' d d' : Bytes} (hl : ∀ c ∈ l, 65 ≤ c ∧ c ≤ 90) (hl' : ∀ c ∈ l', 65 ≤ c ∧ c ≤ 90)
    (hd : d ≠ [] ∧ ∀ c ∈ d, 48 ≤ c.toNat ∧ c.toNat ≤ 57) (hd' : d' ≠ [] ∧ ∀ c ∈ d', 48 ≤ c.toNat ∧ c.toNat ≤ 57)
    (e : l ++ d = l' ++ d') : l = l' ∧ d = d' := by
  have clash : ∀ (l : Bytes) (d : Bytes) (c : UInt8) (t : Bytes), 65 ≤ c → d ≠ [] →
      (∀ x ∈ d, 48 ≤ x.toNat ∧ x.toNat ≤ 57) → d = c :: t → False := by
    intro l d c t hc _ hd e
    have h1 := hd c (by rw [e]; simp)
    have h2 : 65 ≤ c.toNat := UInt8.le_iff_toNat_le.1 hc
    omega
  induction l generalizing l' with
  | nil =>
    cases l' with
    | nil => exact ⟨rfl, e⟩
    | cons x xs => exact absurd (clash [] d x (xs ++ d') (hl' x (by simp)).1 hd.1 hd.2 (by simpa using e)) id
  | cons y ys ih =>
    cases l' with
    | nil => exact absurd (clash [] d' y (ys ++ d) (hl y (by simp)).1 hd'.1 hd'.2 (by simpa using e.symm)) id
    | cons x xs =>
      simp only [List.cons_append, List.cons.injEq] at e
      obtain ⟨h1, h2⟩ := ih (fun c h => hl c (by simp [h])) (l' := xs) (fun c h => hl' c (by simp [h])) e.2
      exact ⟨by rw [e.1, h1], h2⟩

/-- A text names at most one cell. -/
theorem C51_names_one_cell (t : Bytes) (row col row' col' : Nat) (h : NamesCell t row col)
    (h' : NamesCell t row' col') : row = row' ∧ col = col' := by
  obtain ⟨l, e, hl, hc⟩ := h
  obtain ⟨l', e', hl', hc'⟩ := h'
  obtain ⟨e1, e2⟩ := letters_split hl.2 hl'.2 (digits_of_readNumeral (readNumeral_dec _))
    (digits_of_readNumeral (readNumeral_dec _)) (e.symm.trans e')
  subst e1
  have := readNumeral_dec (row + 1)
  rw [e2, readNumeral_dec] at this
  simp at this
  omega

/-- C51, formula cells: a formula record that is accepted shows the name of its cell. (`col` is a 16-bit field
whose last value is not a column of a sheet.) -/
theorem C51_formula_partial (abi : Abi) (fmt : Fmt) (fuel : Nat) (names : Nat → Nat → Option Bytes) (data : Bytes)
    (v : View) (row col : Nat) (hr : Num data 0 2 row) (hc : Num data 2 2 col) (hcol : col < 65535)
    (h : mkFormula abi fmt fuel names data = .ok v) :
    ∃ json xml cell, (Rec.make 0x0006 data v).toJson abi fmt = .ok json ∧
      (Rec.make 0x0006 data v).toXml abi fmt = .ok xml ∧ NamesCell cell row col ∧ ShowsText json xml b!"Cell" cell := by
  have hl := hc.length_le
  unfold mkFormula at h
  dsimp only at h
  rw [readUShort_num hr (by omega) (by omega), readUShort_num hc (by omega) (by omega)] at h
  simp only [Res.bind_ok] at h
  have hv : ∃ value flags formula ixfe, v = .formula row col ixfe value flags formula := by
    revert h
    cases ReadUShort data data.length 4 with
    | ok x4 =>
      cases rdRange data 6 6 with
      | ok x6 =>
        cases ReadUShort data data.length 12 with
        | ok x12 =>
          cases rdRange data 12 2 with
          | ok x13 =>
            cases rdRange data 14 6 with
            | ok x14 =>
              cases ReadUShort data data.length 20 with
              | ok x20 =>
                cases Rgce.Parse abi fuel data data.length 22 with
                | ok g =>
                  simp only [Res.bind_ok]
                  cases RgbExtra data data.length (u32 (22 + g.2)) with
                  | ok _ =>
                    intro h
                    simp only [Res.bind_ok, Res.ok.injEq] at h
                    exact ⟨_, _, _, _, h.symm⟩
                  | _ => intro h; cases h
                | _ => intro h; cases h
              | _ => intro h; cases h
            | _ => intro h; cases h
          | _ => intro h; cases h
        | _ => intro h; cases h
      | _ => intro h; cases h
    | _ => intro h; cases h
  obtain ⟨value, flags, formula, ixfe, rfl⟩ := hv
  obtain ⟨json, xml, hj, hx, ht, _⟩ := printed (abi := abi) (fmt := fmt)
    (r := Rec.make 0x0006 data (.formula row col ixfe value flags formula)) (l := formulaFields fmt row col value flags formula) rfl
  refine ⟨json, xml, cellRef row col, hj, hx, cellRef_names hcol, ht _ _ ?_⟩
  simp [formulaFields]

/-- A formula record at C4 with the value 0 and the formula 1+1 is accepted. -/
example : ∃ data v, Num data 0 2 3 ∧ Num data 2 2 2 ∧
    mkFormula Abi.linux Fmt.zero 9 (fun _ _ => none) data = .ok v := by
  refine ⟨[3, 0, 2, 0, 15, 0, 0, 0, 0, 0, 0, 0, 0, 0, 0, 0, 0, 0, 0, 0, 7, 0, 0x1E, 1, 0, 0x1E, 1, 0, 3], _, ?_, ?_, rfl⟩
  · exact num_of_le (by decide)
  · exact num_of_le (by decide)

/-- C51, references in formulas: the token of a reference in the same sheet (`PtgRef`) shows the cell; the
column has 14 bits. -/
theorem C51_ref_partial (abi : Abi) (fmt : Fmt) (buffer : Bytes) (max index t row w : Nat) (hm : buffer.length ≤ max)
    (h32 : index + 5 < 2 ^ 32) (ht : t = 0x24 ∨ t = 0x44 ∨ t = 0x64) (h0 : Num buffer index 1 t)
    (hr : Num buffer (index + 1) 2 row) (hw : Num buffer (index + 3) 2 w) :
    ∃ p cell, parsePtg abi buffer max index = .ok (p, 5) ∧ p.to_string fmt = b!"PtgRef(" ++ cell ++ b!")" ∧
      NamesCell cell row (w % 16384) := by
  obtain ⟨u, hu, eu⟩ := rd_num h0
  have hl := hw.length_le
  have e1 : u32 (index + 1) = index + 1 := by unfold u32; omega
  have e2 : u32 (index + 1 + 2) = index + 3 := by unfold u32; omega
  have e3 : u32 (index + 3 + 1) = index + 4 := by unfold u32; omega
  refine ⟨.ref row (w % 16384), cellRef row (w % 16384), ?_, rfl, cellRef_names (by omega)⟩
  have hp : ptgRef buffer max index = .ok (.ref row (w % 16384), 5) := by
    unfold ptgRef RgceLoc ColRelU
    rw [e1, e2, e3, readUShort_num hr (by omega) (by omega), readUShort_num hw (by omega) (by omega),
      rd_lt (by omega : index + 4 < buffer.length)]
    rfl
  unfold parsePtg
  rw [hu]
  simp only [Res.bind_ok, eu]
  rcases ht with rfl | rfl | rfl <;> simpa [variant] using hp

example : ∃ buffer, Num buffer 0 1 0x24 ∧ Num buffer 1 2 2 ∧ Num buffer 3 2 0xC001 ∧ ∃ p,
    parsePtg Abi.linux buffer buffer.length 0 = .ok (p, 5) ∧ p.to_string Fmt.zero = b!"PtgRef(B3)" :=
  ⟨[0x24, 2, 0, 1, 0xC0], num_of_le (by decide), num_of_le (by decide), num_of_le (by decide), _, rfl, by decide⟩

/-- C51, references to another sheet (`PtgRef3d`). -/
theorem C51_ref3d_partial (abi : Abi) (fmt : Fmt) (buffer : Bytes) (max index t row w : Nat)
    (hm : buffer.length ≤ max) (h32 : index + 7 < 2 ^ 32) (ht : t = 0x3A ∨ t = 0x5A ∨ t = 0x7A)
    (h0 : Num buffer index 1 t) (hr : Num buffer (index + 3) 2 row) (hw : Num buffer (index + 5) 2 w) :
    ∃ p cell, parsePtg abi buffer max index = .ok (p, 7) ∧ p.to_string fmt = b!"PtgRef3d(" ++ cell ++ b!")" ∧
      NamesCell cell row (w % 16384) := by
  obtain ⟨u, hu, eu⟩ := rd_num h0
  have hl := hw.length_le
  have e1 : u32 (index + 1) = index + 1 := by unfold u32; omega
  have e2 : u32 (index + 3) = index + 3 := by unfold u32; omega
  have e3 : u32 (index + 3 + 2) = index + 5 := by unfold u32; omega
  have e4 : u32 (index + 5 + 1) = index + 6 := by unfold u32; omega
  refine ⟨.ref3d row (w % 16384), cellRef row (w % 16384), ?_, rfl, cellRef_names (by omega)⟩
  have hp : ptgRef3d buffer max index = .ok (.ref3d row (w % 16384), 7) := by
    unfold ptgRef3d RgceLoc ColRelU PtgSubTypeIxti
    have hi : Num buffer (index + 1) 2 _ := num_of_le (by omega)
    rw [e1, e2, e3, e4, readUShort_num hi (by omega) (by omega), readUShort_num hr (by omega) (by omega),
      readUShort_num hw (by omega) (by omega), rd_lt (by omega : index + 6 < buffer.length)]
    rfl
  unfold parsePtg
  rw [hu]
  simp only [Res.bind_ok, eu]
  rcases ht with rfl | rfl | rfl <;> simpa [variant] using hp

/-- C51, areas of another sheet (`PtgArea3d`): both corners are shown. -/
theorem C51_area3d_partial (abi : Abi) (fmt : Fmt) (buffer : Bytes) (max index t r1 r2 w1 w2 : Nat)
    (hm : buffer.length ≤ max) (h32 : index + 11 < 2 ^ 32) (ht : t = 0x3B ∨ t = 0x5B ∨ t = 0x7B)
    (h0 : Num buffer index 1 t) (hr1 : Num buffer (index + 3) 2 r1) (hr2 : Num buffer (index + 5) 2 r2)
    (hw1 : Num buffer (index + 7) 2 w1) (hw2 : Num buffer (index + 9) 2 w2) :
    ∃ p c1 c2, parsePtg abi buffer max index = .ok (p, 11) ∧
      p.to_string fmt = b!"PtgArea3d(" ++ c1 ++ b!":" ++ c2 ++ b!")" ∧
      NamesCell c1 r1 (w1 % 16384) ∧ NamesCell c2 r2 (w2 % 16384) := by
  obtain ⟨u, hu, eu⟩ := rd_num h0
  have hl := hw2.length_le
  have e1 : u32 (index + 1) = index + 1 := by unfold u32; omega
  have e2 : u32 (index + 3) = index + 3 := by unfold u32; omega
  have e3 : u32 (index + 3 + 2) = index + 5 := by unfold u32; omega
  have e4 : u32 (index + 3 + 4) = index + 7 := by unfold u32; omega
  have e5 : u32 (index + 3 + 6) = index + 9 := by unfold u32; omega
  have e6 : u32 (index + 7 + 1) = index + 8 := by unfold u32; omega
  have e7 : u32 (index + 9 + 1) = index + 10 := by unfold u32; omega
  refine ⟨.area3d r1 r2 (w1 % 16384) (w2 % 16384), cellRef r1 (w1 % 16384), cellRef r2 (w2 % 16384), ?_, rfl,
    cellRef_names (by omega), cellRef_names (by omega)⟩
  have hp : ptgArea3d buffer max index = .ok (.area3d r1 r2 (w1 % 16384) (w2 % 16384), 11) := by
    unfold ptgArea3d RgceArea ColRelU PtgSubTypeIxti
    have hi : Num buffer (index + 1) 2 _ := num_of_le (by omega)
    rw [e1, e2, e3, e4, e5, e6, e7, readUShort_num hi (by omega) (by omega), readUShort_num hr1 (by omega) (by omega),
      readUShort_num hr2 (by omega) (by omega), readUShort_num hw1 (by omega) (by omega),
      readUShort_num hw2 (by omega) (by omega), rd_lt (by omega : index + 8 < buffer.length),
      rd_lt (by omega : index + 10 < buffer.length)]
    rfl
  unfold parsePtg
  rw [hu]
  simp only [Res.bind_ok, eu]
  rcases ht with rfl | rfl | rfl <;> simpa [variant] using hp

/-- C51, the cell an array or shared formula hangs on (`PtgExp`). -/
theorem C51_exp_partial (abi : Abi) (fmt : Fmt) (buffer : Bytes) (max index row col : Nat)
    (hm : buffer.length ≤ max) (h32 : index + 5 < 2 ^ 32) (h0 : Num buffer index 1 0x01)
    (hr : Num buffer (index + 1) 2 row) (hc : Num buffer (index + 3) 2 col) (hcol : col < 65535) :
    ∃ p cell, parsePtg abi buffer max index = .ok (p, 5) ∧ p.to_string fmt = b!"PtgExp(" ++ cell ++ b!")" ∧
      NamesCell cell row col := by
  obtain ⟨u, hu, eu⟩ := rd_num h0
  have hl := hc.length_le
  have e1 : u32 (index + 1) = index + 1 := by unfold u32; omega
  have e2 : u32 (index + 3) = index + 3 := by unfold u32; omega
  refine ⟨.exp row col, cellRef row col, ?_, rfl, cellRef_names hcol⟩
  unfold parsePtg
  rw [hu]
  simp only [Res.bind_ok, eu, ↓reduceIte]
  unfold ptgExp rowCol
  rw [e1, e2, readUShort_num hr (by omega) (by omega), readUShort_num hc (by omega) (by omega)]
  rfl

/-- C51 is false of areas in the same sheet (`PtgArea`): the four numbers are read one byte too early. The
area A1:B2 is shown as `A38:IW257`. -/
theorem C51_area_false :
    ¬ ∀ (abi : Abi) (fmt : Fmt) (buffer : Bytes) (max index r1 r2 w1 w2 : Nat) (p : Ptg) (n : Nat) (c1 c2 : Bytes),
      buffer.length ≤ max → index + 9 < 2 ^ 32 → Num buffer index 1 0x25 → Num buffer (index + 1) 2 r1 →
      Num buffer (index + 3) 2 r2 → Num buffer (index + 5) 2 w1 → Num buffer (index + 7) 2 w2 →
      parsePtg abi buffer max index = .ok (p, n) → NamesCell c1 r1 (w1 % 16384) → NamesCell c2 r2 (w2 % 16384) →
      p.to_string fmt = b!"PtgArea(" ++ c1 ++ b!":" ++ c2 ++ b!")" := by
  intro h
  have h := h Abi.linux Fmt.zero [0x25, 0, 0, 1, 0, 0, 0, 1, 0] 9 0 0 1 0 1 (.area 37 256 0 256) 9 b!"A1" b!"B2"
    (by decide) (by decide) (num_of_le (by decide)) (num_of_le (by decide)) (num_of_le (by decide))
    (num_of_le (by decide)) (num_of_le (by decide)) (by decide)
    ⟨b!"A", by decide, by unfold IsColumnName; decide, by decide⟩
    ⟨b!"B", by decide, by unfold IsColumnName; decide, by decide⟩
  exact absurd h (by decide)

/-- C51 is false of data table tokens (`PtgTbl`): the zero-based numbers are shown as they are, so that the
text names the cell one up and one to the left, and no cell in the first row or column. -/
theorem C51_tbl_false (abi : Abi) (fmt : Fmt) (buffer : Bytes) (max index row col : Nat)
    (hm : buffer.length ≤ max) (h32 : index + 5 < 2 ^ 32) (h0 : Num buffer index 1 0x02)
    (hr : Num buffer (index + 1) 2 row) (hc : Num buffer (index + 3) 2 col) :
    ∃ p cell, parsePtg abi buffer max index = .ok (p, 5) ∧ p.to_string fmt = b!"PtgTbl(" ++ cell ++ b!")" ∧
      ¬ NamesCell cell row col := by
  obtain ⟨u, hu, eu⟩ := rd_num h0
  have hl := hc.length_le
  have e1 : u32 (index + 1) = index + 1 := by unfold u32; omega
  have e2 : u32 (index + 3) = index + 3 := by unfold u32; omega
  refine ⟨.tbl row col, ColNumToName col ++ dec row, ?_, by simp [Ptg.to_string], ?_⟩
  · unfold parsePtg
    rw [hu]
    simp only [Res.bind_ok, eu]
    unfold ptgTbl rowCol
    rw [e1, e2, readUShort_num hr (by omega) (by omega), readUShort_num hc (by omega) (by omega)]
    rfl
  · rintro ⟨l, e, hl, hn⟩
    obtain ⟨a, b⟩ := letters_split (ColNumToName_spec col).1 hl.2 (digits_of_readNumeral (readNumeral_dec row))
      (digits_of_readNumeral (readNumeral_dec _)) e
    rw [← a, (ColNumToName_spec col).2] at hn
    omega

example : ∃ buffer, Num buffer 0 1 0x02 ∧ Num buffer 1 2 7 ∧ Num buffer 3 2 0 :=
  ⟨[2, 7, 0, 0, 0], num_of_le (by decide), num_of_le (by decide), num_of_le (by decide)⟩

/-- C51 is false of RK cells: the column is not made one-based, so every RK record is shown with the name of
the cell to its left (and cells of the first column with no letter at all). -/
theorem C51_rk_false (abi : Abi) (fmt : Fmt) (data : Bytes) (row col : Nat) (hlen : data.length = 10)
    (hr : Num data 0 2 row) (hc : Num data 2 2 col) :
    ∃ v json xml cell, mkRK data = .ok v ∧ (Rec.make 0x027E data v).toJson abi fmt = .ok json ∧
      (Rec.make 0x027E data v).toXml abi fmt = .ok xml ∧ ShowsText json xml b!"Cell" cell ∧
      (1 ≤ col → NamesCell cell row (col - 1)) ∧ ¬ NamesCell cell row col := by
  have hi : Num data 4 2 _ := num_of_le (by omega)
  have hmk : mkRK data = .ok (.rk row col (leVal ((data.drop 4).take 2))) := by
    unfold mkRK
    rw [readUShort_num hr (by omega) (by omega), readUShort_num hc (by omega) (by omega),
      readUShort_num hi (by omega) (by omega), hi.eq]
    rfl
  have hf : (Rec.make 0x027E data (.rk row col (leVal ((data.drop 4).take 2)))).fields abi fmt =
      rkFields fmt data row col (leVal ((data.drop 4).take 2)) := rfl
  unfold rkFields at hf
  rw [rdRange_ok (by omega), Res.bind_ok] at hf
  obtain ⟨json, xml, hj, hx, ht, _⟩ := printed hf
  refine ⟨_, json, xml, ColNumToName col ++ dec (row + 1), hmk, hj, hx, ht _ _ (by simp), ?_, ?_⟩
  · intro h1
    refine ⟨_, rfl, ⟨ColNumToName_ne_nil h1, (ColNumToName_spec col).1⟩, ?_⟩
    rw [(ColNumToName_spec col).2]; omega
  · rintro ⟨l, e, hl, hn⟩
    obtain ⟨a, b⟩ := letters_split (ColNumToName_spec col).1 hl.2 (digits_of_readNumeral (readNumeral_dec _))
      (digits_of_readNumeral (readNumeral_dec _)) e
    rw [← a, (ColNumToName_spec col).2] at hn
    omega

example : ∃ data : Bytes, data.length = 10 ∧ Num data 0 2 0 ∧ Num data 2 2 1 :=
  ⟨[0, 0, 1, 0, 15, 0, 6, 0, 0, 0], rfl, num_of_le (by decide), num_of_le (by decide)⟩

/-- C51 is false of runs of blank cells (`MulBlank`): the first and last column are shown with the name of the
column to their left. -/
theorem C51_mulblank_false (abi : Abi) (fmt : Fmt) (data : Bytes) (v : View) (row first last : Nat)
    (hlen : data.length < 2 ^ 32) (hr : Num data 0 2 row) (hf : Num data 2 2 first)
    (hl : Num data (data.length - 2) 2 last) (h : mkMulBlank data = .ok v) :
    ∃ json xml a b, (Rec.make 0x00BE data v).toJson abi fmt = .ok json ∧
      (Rec.make 0x00BE data v).toXml abi fmt = .ok xml ∧
      ShowsText json xml b!"colFirst" a ∧ ShowsText json xml b!"colLast" b ∧
      columnNumber a = first ∧ columnNumber b = last := by
  have h4 := hf.length_le
  have e : sub32 data.length 2 = data.length - 2 := by unfold sub32; omega
  unfold mkMulBlank at h
  rw [e, readUShort_num hr (by omega) (by omega), Res.bind_ok, readUShort_num hf (by omega) (by omega), Res.bind_ok,
    readUShort_num hl (by omega) (by omega), Res.bind_ok] at h
  generalize mulBlankEntries data first last = m at h
  cases m with
  | ok l =>
    simp only [Res.bind_ok, Res.ok.injEq] at h
    subst h
    obtain ⟨json, xml, hj, hx, ht, _⟩ := printed (abi := abi) (fmt := fmt)
      (r := Rec.make 0x00BE data (.mulBlank row first last l)) rfl
    exact ⟨json, xml, _, _, hj, hx, ht _ _ (by simp [mulBlankFields]), ht _ _ (by simp [mulBlankFields]),
      (ColNumToName_spec first).2, (ColNumToName_spec last).2⟩
  | _ => cases h

/-- The blank cells C1 and D1. -/
example : ∃ data v, Num data 0 2 0 ∧ Num data 2 2 2 ∧ Num data (data.length - 2) 2 3 ∧ mkMulBlank data = .ok v :=
  ⟨[0, 0, 2, 0, 15, 0, 15, 0, 3, 0], .mulBlank 0 2 3 [15, 15], num_of_le (by decide), num_of_le (by decide),
    num_of_le (by decide), by decide +kernel⟩

/-- C51 is false of blank, boolean and shared string cells: the record is taken for an object with a hidden
pointer in front, so that showing any well-formed record of these types reads behind its end. -/
theorem C51_blank_false (abi : Abi) (fmt : Fmt) (data : Bytes) (h : data.length = 6) :
    mkBlank data = .ok .blank ∧ ((Rec.make 0x0201 data .blank).toJson abi fmt).isUB = true ∧
      ((Rec.make 0x0201 data .blank).toXml abi fmt).isUB = true := by
  refine ⟨by unfold mkBlank; rw [if_neg (by omega)], ?_, ?_⟩ <;>
    simp [Rec.toJson, Rec.toXml, Rec.fields, Rec.make, ifUnmoved, blankFields, cellThroughCast,
      rdRange_ub (b := data) (i := 12) (n := 4) (by omega), Res.isUB]

theorem C51_boolerr_false (abi : Abi) (fmt : Fmt) (data : Bytes) (h : data.length = 8) :
    ∃ v, mkBoolErr data = .ok v ∧ ((Rec.make 0x0205 data v).toJson abi fmt).isUB = true ∧
      ((Rec.make 0x0205 data v).toXml abi fmt).isUB = true := by
  refine ⟨.boolErr (data[6]'(by omega)).toNat (data[7]'(by omega)).toNat, ?_, ?_, ?_⟩
  · unfold mkBoolErr
    rw [if_neg (by omega), if_neg (by omega), rd_lt (by omega : 6 < data.length), Res.bind_ok, if_neg (by omega),
      rd_lt (by omega : 7 < data.length)]
    rfl
  · simp [Rec.toJson, Rec.fields, Rec.make, ifUnmoved, boolErrFields, cellThroughCast,
      rdRange_ub (b := data) (i := 12) (n := 4) (by omega), Res.isUB]
  · simp [Rec.toXml, Rec.fields, Rec.make, ifUnmoved, boolErrFields, cellThroughCast,
      rdRange_ub (b := data) (i := 12) (n := 4) (by omega), Res.isUB]

theorem C51_labelsst_false (abi : Abi) (fmt : Fmt) (data : Bytes) (sst : Option Rec) (h : data.length = 10) :
    ∃ v, mkLabelSst data sst = .ok v ∧ ((Rec.make 0x00FD data v).toJson abi fmt).isUB = true ∧
      ((Rec.make 0x00FD data v).toXml abi fmt).isUB = true := by
  have hn : Num data 6 4 _ := num_of_le (by omega)
  refine ⟨.labelSst (leVal ((data.drop 6).take 4)) (sstString sst (leVal ((data.drop 6).take 4))), ?_, ?_, ?_⟩
  · unfold mkLabelSst
    rw [readUInt_num hn (by omega) (by omega), hn.eq]
    rfl
  · simp [Rec.toJson, Rec.fields, Rec.make, ifUnmoved, labelSstFields, cellThroughCast,
      rdRange_ub (b := data) (i := 12) (n := 4) (by omega), Res.isUB]
  · simp [Rec.toXml, Rec.fields, Rec.make, ifUnmoved, labelSstFields, cellThroughCast,
      rdRange_ub (b := data) (i := 12) (n := 4) (by omega), Res.isUB]

/-! ## C53 RK numbers -/

/-- What an RK record shows as its value. -/
theorem rk_value (abi : Abi) (fmt : Fmt) (data : Bytes) (n : Nat) (hlen : data.length = 10) (hn : Num data 6 4 n) :
    ∃ v json xml, mkRK data = .ok v ∧ (Rec.make 0x027E data v).toJson abi fmt = .ok json ∧
      (Rec.make 0x027E data v).toXml abi fmt = .ok xml ∧ ShowsNum json xml b!"Value" (rkValue fmt n) := by
  have h0 : Num data 0 2 _ := num_of_le (by omega)
  have h2 : Num data 2 2 _ := num_of_le (by omega)
  have h4 : Num data 4 2 _ := num_of_le (by omega)
  have hmk : mkRK data = .ok (.rk (leVal ((data.drop 0).take 2)) (leVal ((data.drop 2).take 2))
      (leVal ((data.drop 4).take 2))) := by
    unfold mkRK
    rw [readUShort_num h0 (by omega) (by omega), readUShort_num h2 (by omega) (by omega),
      readUShort_num h4 (by omega) (by omega), h0.eq, h2.eq, h4.eq]
    rfl
  have hf : (Rec.make 0x027E data (.rk (leVal ((data.drop 0).take 2)) (leVal ((data.drop 2).take 2))
      (leVal ((data.drop 4).take 2)))).fields abi fmt =
      rkFields fmt data (leVal ((data.drop 0).take 2)) (leVal ((data.drop 2).take 2)) (leVal ((data.drop 4).take 2)) := rfl
  unfold rkFields at hf
  rw [rdRange_ok (by omega), Res.bind_ok, ← hn.eq] at hf
  obtain ⟨json, xml, hj, hx, _, ht, _⟩ := printed hf
  exact ⟨_, json, xml, hmk, hj, hx, ht _ _ (by simp)⟩

/-- C53, part: an RK number that denotes a non-negative integer coded as an integer is shown in decimal.
Missing: negative integers, hundredths that are not whole, and numbers coded in floating point — C53 is false
of these, see below. -/
theorem C53_partial (abi : Abi) (fmt : Fmt) (data : Bytes) (n : Nat) (hlen : data.length = 10) (hn : Num data 6 4 n)
    (hint : n.testBit 1 = true) (hpos : n / 4 < 2 ^ 29) (hwhole : n.testBit 0 = false ∨ rkInteger n % 100 = 0) :
    ∃ v json xml text k, mkRK data = .ok v ∧ (Rec.make 0x027E data v).toJson abi fmt = .ok json ∧
      (Rec.make 0x027E data v).toXml abi fmt = .ok xml ∧ ShowsNum json xml b!"Value" text ∧
      readNumeral 10 text = some k ∧ (k : Int) * (if n.testBit 0 then 100 else 1) = rkInteger n := by
  obtain ⟨v, json, xml, h1, h2, h3, h4⟩ := rk_value abi fmt data n hlen hn
  have hlt : n < 2 ^ 32 := hn.lt
  have e30 : bits n 2 30 = n / 4 := by unfold bits; omega
  have b1 : bits n 1 1 = 1 := by
    rw [Nat.testBit_eq_decide_div_mod_eq] at hint
    exact of_decide_eq_true hint
  have ei : rkInteger n = (n / 4 : Nat) := by
    unfold rkInteger twosComplement; rw [if_pos hpos]
  have b0 : bits n 0 1 = if n.testBit 0 then 1 else 0 := by
    rw [Nat.testBit_eq_decide_div_mod_eq]
    unfold bits
    by_cases h : n / 2 ^ 0 % 2 = 1
    · simp only [h, decide_true, ↓reduceIte]
    · simp only [h, decide_false, Bool.false_eq_true, ↓reduceIte]; omega
  refine ⟨v, json, xml, rkValue fmt n, if n.testBit 0 then n / 4 / 100 else n / 4, h1, h2, h3, h4, ?_, ?_⟩
  · unfold rkValue
    rw [if_pos b1, b0, e30]
    cases n.testBit 0 <;> simp [readNumeral_dec]
  · rw [ei]
    rw [ei] at hwhole
    cases h : n.testBit 0
    · simp
    · rcases hwhole with h' | h'
      · rw [h] at h'; simp at h'
      · simp only [↓reduceIte]; omega

/-- The cell value 1234 and the cell value 5 coded as 500 hundredths. -/
example : ∃ a b : Bytes, a.length = 10 ∧ Num a 6 4 (1234 * 4 + 2) ∧ b.length = 10 ∧ Num b 6 4 (500 * 4 + 3) ∧
    rkInteger (500 * 4 + 3) % 100 = 0 :=
  ⟨[0, 0, 0, 0, 15, 0, 74, 19, 0, 0], [0, 0, 0, 0, 15, 0, 211, 7, 0, 0], rfl, num_of_le (by decide), rfl,
    num_of_le (by decide), by decide⟩

/-- C53 is false of negative integers: −1 is shown as 1073741823. -/
theorem C53_negative_false (abi : Abi) (fmt : Fmt) :
    ∃ data n v json xml, data.length = 10 ∧ Num data 6 4 n ∧ n.testBit 1 = true ∧ n.testBit 0 = false ∧
      rkInteger n = -1 ∧ mkRK data = .ok v ∧ (Rec.make 0x027E data v).toJson abi fmt = .ok json ∧
      (Rec.make 0x027E data v).toXml abi fmt = .ok xml ∧ ShowsNum json xml b!"Value" b!"1073741823" := by
  have hn : Num [0, 0, 0, 0, 15, 0, 0xFE, 0xFF, 0xFF, 0xFF] 6 4 0xFFFFFFFE := num_of_le (by decide)
  obtain ⟨v, json, xml, h1, h2, h3, h4⟩ := rk_value abi fmt _ _ rfl hn
  exact ⟨_, _, v, json, xml, rfl, hn, by decide, by decide, by decide, h1, h2, h3, by
    rwa [show rkValue fmt 0xFFFFFFFE = b!"1073741823" from rfl] at h4⟩

/-- C53 is false of hundredths: 0.99 is shown as 0. -/
theorem C53_hundredths_false (abi : Abi) (fmt : Fmt) :
    ∃ data n v json xml, data.length = 10 ∧ Num data 6 4 n ∧ n.testBit 1 = true ∧ n.testBit 0 = true ∧
      rkInteger n = 99 ∧ mkRK data = .ok v ∧ (Rec.make 0x027E data v).toJson abi fmt = .ok json ∧
      (Rec.make 0x027E data v).toXml abi fmt = .ok xml ∧ ShowsNum json xml b!"Value" b!"0" := by
  have hn : Num [0, 0, 0, 0, 15, 0, 143, 1, 0, 0] 6 4 399 := num_of_le (by decide)
  obtain ⟨v, json, xml, h1, h2, h3, h4⟩ := rk_value abi fmt _ _ rfl hn
  exact ⟨_, _, v, json, xml, rfl, hn, by decide, by decide, by decide, h1, h2, h3, by
    rwa [show rkValue fmt 399 = b!"0" from rfl] at h4⟩

theorem same_units {a b x y : Nat} (ha : 2 ^ 23 ≤ a) (ha' : a < 2 ^ 24) (hb : 2 ^ 18 ≤ b) (hb' : b < 2 ^ 19)
    (h : a * 2 ^ x = b * 2 ^ y) : y = x + 5 ∧ a = 32 * b := by
  have hx : 0 < 2 ^ x := Nat.pow_pos (by decide)
  have hy : 0 < 2 ^ y := Nat.pow_pos (by decide)
  rcases Nat.lt_trichotomy y (x + 5) with hlt | heq | hgt
  · exfalso
    have h1 : 2 ^ (23 + x) ≤ a * 2 ^ x := by rw [Nat.pow_add]; exact Nat.mul_le_mul_right _ ha
    have h2 : b * 2 ^ y < 2 ^ (19 + y) := by rw [Nat.pow_add]; exact Nat.mul_lt_mul_of_pos_right hb' hy
    have h3 : 2 ^ (19 + y) ≤ 2 ^ (23 + x) := Nat.pow_le_pow_right (by decide) (by omega)
    omega
  · refine ⟨heq, ?_⟩
    rw [heq, Nat.pow_add, Nat.mul_comm (2 ^ x), ← Nat.mul_assoc] at h
    have := Nat.eq_of_mul_eq_mul_right hx h
    omega
  · exfalso
    have h1 : a * 2 ^ x < 2 ^ (24 + x) := by rw [Nat.pow_add]; exact Nat.mul_lt_mul_of_pos_right ha' hx
    have h2 : 2 ^ (18 + y) ≤ b * 2 ^ y := by rw [Nat.pow_add]; exact Nat.mul_le_mul_right _ hb
    have h3 : 2 ^ (24 + x) ≤ 2 ^ (18 + y) := Nat.pow_le_pow_right (by decide) (by omega)
    omega

/-- C53 is false of numbers coded in floating point: the 30 bits are the upper bits of a double, and are
printed as a single. No positive normal number is shown as itself: the single with that pattern never has the
value of the double. -/
theorem C53_float_false (abi : Abi) (fmt : Fmt) (data : Bytes) (n : Nat) (hlen : data.length = 10)
    (hn : Num data 6 4 n) (hf : n.testBit 1 = false) (hpos : n < 2 ^ 31) (hnormal : 2 ^ 20 ≤ n) :
    ∃ v json xml, mkRK data = .ok v ∧ (Rec.make 0x027E data v).toJson abi fmt = .ok json ∧
      (Rec.make 0x027E data v).toXml abi fmt = .ok xml ∧ ShowsNum json xml b!"Value" (fmt.f32 (n / 4)) ∧
      singleUnits (n / 4) * 2 ^ 925 ≠ doubleUnits (n / 4 * 2 ^ 34) := by
  obtain ⟨v, json, xml, h1, h2, h3, h4⟩ := rk_value abi fmt data n hlen hn
  have hlt : n < 2 ^ 32 := hn.lt
  have e30 : bits n 2 30 = n / 4 := by unfold bits; omega
  have b1 : bits n 1 1 = 0 := by
    rw [Nat.testBit_eq_decide_div_mod_eq] at hf
    have := of_decide_eq_false hf
    unfold bits; omega
  refine ⟨v, json, xml, h1, h2, h3, ?_, ?_⟩
  · rw [show fmt.f32 (n / 4) = rkValue fmt n by unfold rkValue; rw [b1, e30]; simp]
    exact h4
  · unfold singleUnits doubleUnits
    intro h
    have hp1 : n / 4 * 2 ^ 34 / 2 ^ 52 = n / 4 / 2 ^ 18 := by omega
    have hp2 : n / 4 * 2 ^ 34 % 2 ^ 52 = n / 4 % 2 ^ 18 * 2 ^ 34 := by omega
    rw [hp1, hp2, Nat.mul_assoc, ← Nat.pow_add, show 2 ^ 52 + n / 4 % 2 ^ 18 * 2 ^ 34 = (2 ^ 18 + n / 4 % 2 ^ 18) * 2 ^ 34
      by omega, Nat.mul_assoc, ← Nat.pow_add] at h
    obtain ⟨e1, e2⟩ := same_units (by omega) (by omega) (by omega) (by omega) h
    omega

/-- The number 1.5. -/
example : ∃ data : Bytes, data.length = 10 ∧ Num data 6 4 0x3FF80000 ∧ doubleUnits (0x3FF80000 / 4 * 2 ^ 34) = 3 * 2 ^ 1074 :=
  ⟨[0, 0, 0, 0, 15, 0, 0, 0, 0xF8, 0x3F], rfl, num_of_le (by decide), by decide +kernel⟩

end Fileid.Props
