import Verif.Spec.Book
import Verif.Props.Formula
import Verif.Props.RecordsMore

/-!
# Lemmas for formulas in the report about a whole workbook
-/

namespace Fileid.Report

open Common Spec Spec.Biff Spec.Report Excel ExcelTables Props

theorem formulaValue_of {fmt : Fmt} {v t : Bytes} (h : FormulaValueText fmt.f64 v t) : formulaValue fmt v = t := by
  unfold formulaValue
  cases h with
  | number h8 hn =>
    match v, h8 with
    | [b0, b1, b2, b3, b4, b5, b6, b7], _ =>
      rw [if_neg, leVal_eq]
      intro hf
      apply hn
      simp only [List.drop_succ_cons, List.drop_zero, List.take_succ_cons, List.take_zero, leVal, Nat.mul_zero, Nat.add_zero] at hf
      have h6 := b6.toNat_lt
      have h7 := b7.toNat_lt
      constructor
      · have : b6.toNat = 255 := by omega
        rw [show b6 = 0xFF from UInt8.toNat_inj.1 this]; rfl
      · have : b7.toNat = 255 := by omega
        rw [show b7 = 0xFF from UInt8.toNat_inj.1 this]; rfl
  | true hb =>
    rw [if_pos (by rfl), if_pos (by rfl), if_neg (by simpa using hb)]
  | false => rfl
  | @error a b c d e =>
    rw [if_pos (by rfl), if_neg (by simp), if_pos (by rfl)]
    have k : ∀ i : Fin 256, ErrorValueString i.val = nameOf errorTexts b!"#UNKNOWN" (UInt8.ofNat i.val) := by
      decide +kernel
    have := k ⟨b.toNat, b.toNat_lt⟩
    simpa using this
  | none h1 h2 =>
    rw [if_pos (by rfl), if_neg (by simpa using h1), if_neg (by simpa using h2)]

theorem tokens_length {num : Nat → Bytes} {names : Nat → Nat → Option Bytes} {toks : List (Bytes × Bytes)}
    (h : ∀ t ∈ toks, TokenText num names t.1 t.2) : toks.length ≤ (toks.flatMap (·.1)).length := by
  induction toks with
  | nil => simp
  | cons t ts ih =>
    rw [List.flatMap_cons, List.length_append, List.length_cons]
    have := token_length (h t (by simp))
    have := ih fun q hq => h q (by simp [hq])
    omega

theorem token_names {num : Nat → Bytes} {names names' : Nat → Nat → Option Bytes} (hn : ∀ k i n, names k i = some n → names' k i = some n)
    {bs t : Bytes} (h : TokenText num names bs t) : TokenText num names' bs t := by
  cases h with
  | op h => exact .op h
  | attr h1 h2 => exact .attr h1 h2
  | elf h1 h2 => exact .elf h1 h2
  | operand h1 h2 h3 => exact .operand h1 h2 h3
  | str h => exact .str h
  | err h => exact .err h
  | true => exact .true
  | false => exact .false
  | int h => exact .int h
  | num h => exact .num h
  | func h1 h2 => exact .func h1 h2
  | funcVar h1 h2 h3 => exact .funcVar h1 h2 h3
  | name h1 h2 h3 h4 h5 => exact .name h1 h2 h3 h4 (hn _ _ _ h5)
  | nameX h1 h2 h3 h4 h5 h6 => exact .nameX h1 h2 h3 h4 h5 (hn _ _ _ h6)
  | exp h1 h2 h3 h4 => exact .exp h1 h2 h3 h4
  | ref h1 h2 h3 h4 => exact .ref h1 h2 h3 h4
  | ref3d h1 h2 h3 h4 h5 => exact .ref3d h1 h2 h3 h4 h5
  | area3d h1 h2 h3 h4 h5 h6 h7 h8 => exact .area3d h1 h2 h3 h4 h5 h6 h7 h8

theorem _root_.Fileid.Spec.Biff.FormulaCell.Valid.names_le {num : Nat → Bytes} {names names' : Nat → Nat → Option Bytes} {f : FormulaCell}
    (h : f.Valid num names) (hn : ∀ k i n, names k i = some n → names' k i = some n) : f.Valid num names' :=
  ⟨h.row, h.column, h.format, h.value, fun t ht => token_names hn (h.tokens t ht), h.size⟩

/-- The name a label defines. -/
theorem label_name {l : Label} {formula : Bytes} (h : l.name.length < 2 ^ 8) :
    (Content.label l formula).record.definedName = some l.name := by
  have h3 : (l.data formula).getD 3 0 = UInt8.ofNat l.name.length := by simp [Label.data, leBytes]
  have h14 : (l.data formula).getD 14 1 = 0 := by simp [Label.data, leBytes]
  have h15 : (l.data formula).drop 15 = l.name ++ formula := by
    simp [Label.data, leBytes]
  show (if (l.data formula).getD 14 1 = 0 then some (((l.data formula).drop 15).take ((l.data formula).getD 3 0).toNat) else none) = _
  rw [h3, h14, h15, if_pos rfl, UInt8.toNat_ofNat', Nat.mod_eq_of_lt h, List.take_left]

/-- What is made of a formula's record. -/
def FormulaCell.view (f : FormulaCell) : View :=
  .formula f.row f.column f.format f.value f.flags.data f.formula

theorem formula_view {abi : Abi} {fmt : Fmt} {fuel : Nat} {f : FormulaCell} {names : Nat → Nat → Option Bytes} (h : f.Valid fmt.f64 names)
    (hfuel : 2 ^ 16 ≤ fuel) : mkFormula abi fmt fuel names f.data = .ok (FormulaCell.view f) := by
  obtain ⟨hrow, hcol, hfmt, hval, htok, hsize⟩ := h
  have hs : At f.data 0 (leBytes 2 f.row ++ leBytes 2 f.column ++ leBytes 2 f.format ++ f.value ++ f.flags.data ++
    leBytes 2 f.rgce.length ++ f.rgce) := Asf.at_self _
  have hflags : f.flags.data.length = 6 := by simp [FormulaFlags.data, leBytes_length]
  have hl : f.data.length = 22 + f.rgce.length := by
    simp only [FormulaCell.data, List.length_append, leBytes_length, hval, hflags]
  have htake : f.data = f.data.take 22 ++ f.tokens.flatMap (·.1) := by
    have : f.data.drop 22 = f.rgce := by
      unfold FormulaCell.data
      rw [List.drop_append_of_le_length (by simp only [List.length_append, leBytes_length, hval, hflags]; omega),
        List.drop_of_length_le (by simp only [List.length_append, leBytes_length, hval, hflags]; omega)]
      rfl
    show _ = f.data.take 22 ++ f.rgce
    rw [← this, List.take_append_drop]
  generalize f.data = d at *
  obtain ⟨q, a22⟩ := at_append hs
  obtain ⟨q, a20⟩ := at_append q
  obtain ⟨q, a14⟩ := at_append q
  obtain ⟨q, a6⟩ := at_append q
  obtain ⟨q, a4⟩ := at_append q
  obtain ⟨a0, a2⟩ := at_append q
  simp only [List.length_append, leBytes_length, hval, hflags, Nat.zero_add, Nat.reduceAdd] at a2 a4 a6 a14 a20 a22
  have hcount : f.tokens.length ≤ f.rgce.length := tokens_length htok
  obtain ⟨ps, hp, htext⟩ := C72_partial abi fmt names d 22 f.tokens fuel htok htake (by omega) (by omega) (by omega)
  have hp : Rgce.Parse abi fuel d d.length 22 = .ok (ps, f.rgce.length) := hp
  have hv6 : f.value.take 6 ++ f.value.drop 6 = f.value := List.take_append_drop _ _
  have hat6 : At d 6 (f.value.take 6 ++ f.value.drop 6) := by rw [hv6]; exact a6
  obtain ⟨b6, b12⟩ := at_append hat6
  have ht6 : (f.value.take 6).length = 6 := by simp [hval]
  rw [ht6] at b12
  obtain ⟨x12, e12⟩ : ∃ v, ReadUShort d d.length 12 = .ok v :=
    ⟨_, readUShort_num (num_of_le (n := 2) (by omega)) (by omega) (by omega)⟩
  unfold mkFormula
  dsimp only
  rw [Asf.ushort_at a0 hrow (by omega), Asf.ushort_at a2 (by omega) (by omega), Asf.ushort_at a4 hfmt (by omega), e12,
    Asf.ushort_at a20 (by omega) (by omega), rdRange_of_at b6 ht6.symm,
    rdRange_of_at (n := 2) b12 (by simp [hval]), rdRange_of_at a14 hflags.symm, hp]
  simp only [Res.bind_ok]
  have hx : RgbExtra d d.length (u32 (22 + f.rgce.length)) = .ok () := by
    rw [← hl, show u32 d.length = d.length from Nat.mod_eq_of_lt (by omega)]
    unfold RgbExtra
    rw [if_neg (by omega), Nat.sub_self, rdRange_ok (by omega)]
    rfl
  rw [hx, htext, hv6]
  rfl

theorem formula_parse {abi : Abi} {fmt : Fmt} {fuel : Nat} {f : FormulaCell} {names : Nat → Nat → Option Bytes} (h : f.Valid fmt.f64 names)
    (hfuel : 2 ^ 16 ≤ fuel) (e : Eng) (he : e.version = 1536) (hn : ∀ k i n, names k i = some n → e.names k i = some n) :
    ParseRecord abi fmt fuel e 0x0006 f.data = .ok (some (e.master, Rec.make 0x0006 f.data (FormulaCell.view f))) := by
  unfold ParseRecord parseVersioned
  rw [if_pos he]
  unfold parseBiff8
  rw [show (Tables.lookup biff8Classes 0x0006).getD [] = b!"Formula" by decide +kernel]
  show dropRangeError (fresh e 0x0006 f.data (mkFormula abi fmt fuel e.names f.data)) = _
  rw [formula_view (h.names_le hn) hfuel]
  rfl

theorem formula_fields {abi : Abi} {fmt : Fmt} {f : FormulaCell} {names : Nat → Nat → Option Bytes} {value : Bytes} (h : f.Valid fmt.f64 names)
    (hv : FormulaValueText fmt.f64 f.value value) :
    ∃ l, (Rec.make 0x0006 f.data (FormulaCell.view f)).fields abi fmt =
      .ok (l ++ [.esc b!"Value" value, .esc b!"FormulaString" f.formula]) ∧ Pointwise Says l (f.facts (cellRef f.row f.column)) := by
  have hm := formula_view (abi := abi) (fuel := 2 ^ 16) h (Nat.le_refl _)
  have hd : f.data = (leBytes 2 f.row ++ leBytes 2 f.column ++ leBytes 2 f.format ++ f.value) ++ f.flags.data ++
      (leBytes 2 f.rgce.length ++ f.rgce) := by
    unfold FormulaCell.data
    simp only [List.append_assoc]
  rw [hd] at hm ⊢
  obtain ⟨cell, val, form, hf⟩ := C96_formula_flags_wrong abi fmt (2 ^ 16) names
    (leBytes 2 f.row ++ leBytes 2 f.column ++ leBytes 2 f.format ++ f.value) f.flags (leBytes 2 f.rgce.length ++ f.rgce) _
    (by simp [leBytes_length, h.value]) hm
  have hg : (Rec.make 0x0006 ((leBytes 2 f.row ++ leBytes 2 f.column ++ leBytes 2 f.format ++ f.value) ++ f.flags.data ++
      (leBytes 2 f.rgce.length ++ f.rgce)) (FormulaCell.view f)).fields abi fmt =
      .ok (formulaFields fmt f.row f.column f.value f.flags.data f.formula) := rfl
  have heq := hg.symm.trans hf
  injection heq with heq
  unfold formulaFields at heq
  dsimp only at heq
  simp only [List.cons.injEq, Field.text.injEq, Field.esc.injEq, true_and, and_true] at heq
  obtain ⟨-, -, -, -, -, -, -, -, -, -, -, -, -, rfl, rfl, rfl⟩ := heq
  rw [hf]
  rw [formulaValue_of hv]
  refine ⟨_, congrArg Res.ok (List.append_assoc [_, _, _, _, _, _, _, _, _, _, _, _, _, _] [] _).symm, ?_⟩
  unfold FormulaCell.facts
  repeat first
    | exact Pointwise.nil
    | refine Pointwise.cons (numF_says rfl rfl rfl) ?_
    | refine Pointwise.cons (text_says rfl rfl (clear_cell _ _)) ?_

end Fileid.Report
