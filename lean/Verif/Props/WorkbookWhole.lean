import Verif.Lemmas.RecordsSure
import Verif.Props.Workbook

/-!
# C49 for workbooks whose records have the data they need
-/

namespace Fileid.Props

open Common Spec Spec.Biff Excel ExcelTables

/-- C49 for BIFF8 workbooks, followed by one to four further bytes, in which sheets are declared only before the second
`BOF` record, there is no `FilePass` record, and every record has the data its kind needs: the walk ends without an
error, and every record of the stream is listed, in order, with its type, its length, and its data with all
continuations. -/
theorem C49_whole_partial (abi : Abi) (fmt : Fmt) (what : What) (fuel : Nat) (b : Record) (globals rest : List Record) (tail : Bytes)
    (hb : b.type ∈ bofTypes ∧ 2 ≤ b.data.length ∧ bofVersion b.data = 0x0600)
    (hv : ∀ r ∈ b :: globals ++ rest, r.Valid ∧ r.type ≠ filePassType)
    (hw : ∀ r ∈ globals ++ rest, Whole (abi.wcharBytes = 2) r) (hg : ∀ r ∈ globals, r.type ∉ bofTypes)
    (hr : ∀ r ∈ rest, r.type ≠ boundSheetType) (hlen : (stream (b :: globals ++ rest) ++ tail).length + 4 ≤ 2 ^ 32)
    (ht : 0 < tail.length ∧ tail.length ≤ 4) (hfuel : (b :: globals ++ rest).length < fuel ∧ 2 ^ 16 ≤ fuel) :
    ∃ x, Detailer abi fmt what fuel (stream (b :: globals ++ rest) ++ tail) = .ok x ∧ x.error = [] ∧
      x.base.Version = 0x0600 ∧
      x.eng.master.map (fun q => (q.type, q.length, q.data)) = contents (b :: globals ++ rest) := by
  obtain ⟨e, he, hgo⟩ := whole_walk hb.1 hb.2.1 hb.2.2 hv hw hg hr hlen ht hfuel
  obtain ⟨x, hx, rfl, h1, h2⟩ := detailer_of_walk (what := what) he hgo.Version
  exact ⟨x, hx, h1, h2, hgo.master⟩

/-- A workbook with a code page, shared strings, an external book and one of its names, a sheet, and in the sheet a row,
a text, a number, a formula, blank cells, and a record that is continued. -/
def ledger : Record × List Record × List Record :=
  (⟨bofType, [0, 6, 5, 0]⟩,
   [(Content.codePage 1252).record, (Content.sharedStrings 1 [⟨false, b!"Sum"⟩]).record,
    (Content.sheet ⟨200, 0, 0, .narrow b!"One"⟩).record,
    ⟨0x01AE, leBytes 2 1 ++ leBytes 2 (b!"a.xls").length ++ [0] ++ b!"a.xls" ++ []⟩,
    ⟨0x0023, leBytes 2 0 ++ [0, 0, 0, 0, UInt8.ofNat (b!"Tax").length, 0] ++ b!"Tax" ++ []⟩, ⟨0x000A, []⟩],
   [⟨bofType, [0, 6, 16, 0]⟩, ⟨0x0208, List.replicate 16 1⟩, ⟨0x00FD, List.replicate 10 0⟩, ⟨0x027E, List.replicate 10 3⟩,
    ⟨0x0006, List.replicate 20 0 ++ leBytes 2 (List.length [0x1E, 1, 0, 0x1E, 1, 0, 3]) ++ [0x1E, 1, 0, 0x1E, 1, 0, 3]⟩,
    ⟨0x00BE, leBytes 2 0 ++ leBytes 2 4 ++ [15, 16].flatMap (leBytes 2) ++ leBytes 2 (4 + 2 - 1)⟩,
    ⟨0x0031, [1, 2, 3]⟩, ⟨continueType, [4]⟩, ⟨0x000A, []⟩])

theorem ledger_whole (wide : Prop) : ∀ r ∈ ledger.2.1 ++ ledger.2.2, Whole wide r := by
  have e1 : IsFormula [0x1E, 1, 0, 0x1E, 1, 0, 3] := by
    refine ⟨fun _ => [], fun _ _ => none, [([0x1E, 1, 0], b!"PtgInt(" ++ dec (littleEndian [1, 0]) ++ b!")"),
      ([0x1E, 1, 0], b!"PtgInt(" ++ dec (littleEndian [1, 0]) ++ b!")"), ([3], b!"PtgAdd")], ?_, rfl⟩
    simp only [List.mem_cons, List.not_mem_nil, or_false]
    rintro t (rfl | rfl | rfl)
    · exact TokenText.int (d := [1, 0]) rfl
    · exact TokenText.int (d := [1, 0]) rfl
    · exact TokenText.op (by decide)
  intro r hr
  simp only [ledger, List.cons_append, List.nil_append, List.mem_cons, List.not_mem_nil, or_false] at hr
  rcases hr with rfl | rfl | rfl | rfl | rfl | rfl | rfl | rfl | rfl | rfl | rfl | rfl | rfl | rfl | rfl
  · exact .content ⟨by decide, by decide⟩ (Or.inl trivial)
  · refine .content ⟨by decide, by decide, ?_⟩ (Or.inl (by simp [Content.Narrow]))
    simp only [List.mem_cons, List.not_mem_nil, or_false, forall_eq]
    exact ⟨by decide, by decide⟩
  · exact .content ⟨by decide, by decide, by decide, fun cs h => by cases h⟩ (Or.inl ⟨_, rfl⟩)
  · exact .book (by decide) (by decide)
  · exact .extern (by decide)
  · exact .other (by decide)
  · exact .bof rfl
  · exact .sized (n := 16) (by decide) (by decide)
  · exact .sized (n := 10) (by decide) (by decide)
  · exact .sized (n := 10) (by decide) (by decide)
  · exact .formula (by decide) e1
  · exact .blanks (formats := [15, 16]) (by decide) (by decide)
  · exact .other (by decide)
  · exact .continuation rfl
  · exact .other (by decide)

example (fmt : Fmt) (what : What) : ∃ x, Detailer Abi.linux fmt what 70000
    (stream (ledger.1 :: ledger.2.1 ++ ledger.2.2) ++ [0]) = .ok x ∧ x.error = [] ∧
    x.eng.master.map (fun q => (q.type, q.length, q.data)) = contents (ledger.1 :: ledger.2.1 ++ ledger.2.2) := by
  obtain ⟨x, h1, h2, _, h3⟩ := C49_whole_partial Abi.linux fmt what 70000 ledger.1 ledger.2.1 ledger.2.2 [0] (by decide)
    (by unfold Record.Valid; decide) (ledger_whole _) (by decide) (by decide) (by decide +kernel) (by decide) (by decide)
  exact ⟨x, h1, h2, h3⟩

/-- A record without the data it needs is not listed: a `RK` record of two bytes. -/
example : (ParseStream Abi.linux Fmt.zero 99 (stream [⟨bofType, [0, 6]⟩, ⟨0x027E, [1, 2]⟩, ⟨0x0031, [7]⟩] ++ [0])).1.master.map
    (fun q => (q.type, q.length, q.data)) = [(bofType, 2, [0, 6]), (0x0031, 1, [7])] ∧
    (ParseStream Abi.linux Fmt.zero 99 (stream [⟨bofType, [0, 6]⟩, ⟨0x027E, [1, 2]⟩, ⟨0x0031, [7]⟩] ++ [0])).2 = .ok () := by
  decide +kernel

end Fileid.Props
