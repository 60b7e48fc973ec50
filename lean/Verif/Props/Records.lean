import Verif.Lemmas.RecordsWalk
import Verif.Props.ReportExcel

/-!
# C96: what is shown of the records of a workbook
-/

namespace Fileid.Props

open Common Spec Spec.Biff Spec.Report Excel ExcelTables

/-- C96 for the record kinds of `Content`, in a BIFF8 stream that ends with one to four further bytes: a record whose
values are stored as in MS-XLS is listed behind the records before it, and its entry, in JSON and in XML, is a document
that says exactly what the record says. Other kinds of records: `C96_other_shown_partial`. Missing: texts of two bytes per character except
shared strings on Windows, records extended by `Continue` records, and `HighestXLVersion` values above one (false). -/
theorem C96_shown_partial (abi : Abi) (fmt : Fmt) (fuel : Nat) (before after : List Record) (c : Content) (tail : Bytes) (e : Eng)
    (hv : ∀ r ∈ before ++ c.record :: after, r.Valid ∧ r.type ≠ filePassType)
    (hb : ∃ b, (before ++ c.record :: after).head? = some b ∧ b.type ∈ bofTypes ∧ 2 ≤ b.data.length ∧ bofVersion b.data = 0x0600)
    (hlen : (stream (before ++ c.record :: after) ++ tail).length + 4 ≤ 2 ^ 32) (ht : 0 < tail.length ∧ tail.length ≤ 4)
    (hc : c.Valid) (hw : c.Narrow ∨ abi.wcharBytes = 2) (hh : ∀ b, c = .bof b → b.highest < 2) (hfuel : c.data.length < fuel)
    (hnc : ∀ r ∈ after.takeWhile (·.type ∈ interpreted), r.type ≠ continueType)
    (h : ParseStream abi fmt fuel (stream (before ++ c.record :: after) ++ tail) = (e, .ok ())) :
    ∃ a q b kept, e.master = a ++ q :: b ∧ kept.Sublist before ∧ (before.filter fun r => r.type ∉ interpreted).Sublist kept ∧
      kept.length = a.length ∧
      (c.InJson → ∃ t, q.toJson abi fmt = .ok t ∧ jsonDocument t = some c.json.events) ∧
      (c.InXml → ∃ t, q.toXml abi fmt = .ok t ∧ xmlDocument t = some c.xml.events) := by
  obtain ⟨a, b, kept, hm, k1, k2, k3⟩ := content_listed hv hb hlen ht hc (Report.content_reads hw) hfuel hnc h
  refine ⟨a, _, b, kept, hm, k1, k2, k3, fun hj => ?_, fun hx => ?_⟩
  · obtain ⟨t, h1, h2⟩ := Report.content_toJson (abi := abi) (fmt := fmt) hc hh hj
    exact ⟨t, h1, h2.document⟩
  · obtain ⟨l, hl⟩ := Report.content_fields abi fmt hc
    obtain ⟨t, h1, _, h2⟩ := Report.content_toXml (abi := abi) (fmt := fmt) hc hh hx hl
    exact ⟨t, h1, h2⟩

/-! ## A workbook -/

def sampleBof : Bof :=
  { version := 0x0600, kind := 5, build := 4307, year := 1996, windows := true, risc := false, beta := false, anyWindows := true,
    anyMac := false, anyBeta := false, anyRisc := false, outOfMemory := false, outOfMemoryRender := false, fontLimit := false,
    highest := 1, lowest := 6, last := 3 }

def sampleLabel : Label :=
  { hidden := true, function := true, ob := false, proc := true, calcExp := false, builtin := false, group := 14, published := false,
    parameter := false, key := 65, sheet := 1, name := b!"Total" }

/-- Ten kinds of records; the defined name stands for the number 7. -/
def sampleContents : List Content :=
  [.bof sampleBof, .codePage 1252, .user b!"Ann" 5, .country 49 1, .codeName b!"ThisWorkbook", .functionGroups 14,
   .functionGroup b!"Mine", .sheet ⟨4096, 1, 0, .narrow b!"Data"⟩, .label sampleLabel [0x1E, 7, 0],
   .sharedStrings 3 [⟨false, b!"one"⟩, ⟨false, b!"two"⟩], .string b!"text"]

/-- The walk through such a stream ends without an error, and every record is listed. -/
example : (ParseStream Abi.linux Fmt.zero 999 (stream (sampleContents.map Content.record) ++ [0])).2 = .ok () ∧
    (ParseStream Abi.linux Fmt.zero 999 (stream (sampleContents.map Content.record) ++ [0])).1.master.map Rec.type =
      sampleContents.map Content.type := by decide +kernel

theorem pair_eq {α β : Type} {p : α × β} {b : β} (h : p.2 = b) : p = (p.1, b) := by subst h; rfl

/-- The defined name of the sample meets the hypotheses of C96. -/
example : ∃ q ∈ (ParseStream Abi.linux Fmt.zero 999 (stream (sampleContents.map Content.record) ++ [0])).1.master,
    ∃ t, q.toJson Abi.linux Fmt.zero = .ok t ∧ jsonDocument t = some (Content.label sampleLabel [0x1E, 7, 0]).json.events := by
  have hx : (ParseStream Abi.linux Fmt.zero 999 (stream (sampleContents.map Content.record) ++ [0])).2 = .ok () := by decide +kernel
  have hform : IsFormula [0x1E, 7, 0] :=
    ⟨fun _ => [], fun _ _ => none, [([0x1E, 7, 0], b!"PtgInt(" ++ dec (littleEndian [7, 0]) ++ b!")")], by
      intro t ht
      simp only [List.mem_singleton] at ht
      subst ht
      exact TokenText.int (d := [7, 0]) rfl, rfl⟩
  have hs : (sampleContents.take 8).map Content.record ++ (Content.label sampleLabel [0x1E, 7, 0]).record ::
      (sampleContents.drop 9).map Content.record = sampleContents.map Content.record := rfl
  obtain ⟨a, q, b, _, hm, _, _, _, hj, _⟩ := C96_shown_partial Abi.linux Fmt.zero 999
    ((sampleContents.take 8).map Content.record) ((sampleContents.drop 9).map Content.record)
    (.label sampleLabel [0x1E, 7, 0]) [0]
    (ParseStream Abi.linux Fmt.zero 999 (stream (sampleContents.map Content.record) ++ [0])).1 (by unfold Record.Valid; decide +kernel) ⟨(Content.bof sampleBof).record, rfl, by decide, by decide +kernel, by decide +kernel⟩ (by decide +kernel) (by decide)
    ⟨by decide +kernel, by decide, by decide, by decide, hform⟩ (Or.inl trivial) (fun _ h => by cases h) (by decide +kernel) (by decide +kernel)
    (by rw [hs]; exact pair_eq hx)
  refine ⟨q, by rw [hm]; simp, hj ⟨?_, ?_⟩⟩
  · intro s hs; cases hs
  · decide

/-! ## Where it is false -/

/-- C96 is false of the highest version that edited a part of the workbook: its lowest bit is shown. -/
theorem C96_highest_wrong (abi : Abi) (fmt : Fmt) (b : Bof) (hv : (Content.bof b).Valid) (hh : 2 ≤ b.highest) :
    ∃ t, (Rec.make 0x0809 b.data .bof).toJson abi fmt = .ok t ∧
      jsonDocument t = some (Content.bof { b with highest := b.highest % 2 }).json.events ∧ b.highest % 2 ≠ b.highest := by
  have hf := Report.bof_fields hv
  have hk := Report.bofType_name hv.2.2.2.2.2.2.2
  rw [hk] at hf
  have hc : Clear (nameOf partKinds [] b.kind) := by rw [← hk]; exact Report.clear_bofType _
  refine ⟨_, by unfold Rec.toJson; rw [show (Rec.make 0x0809 b.data .bof).fields abi fmt = bofFields b.data from rfl, hf, Res.bind_ok], ?_, by omega⟩
  have hl : (Content.bof { b with highest := b.highest % 2 }).data.length = b.data.length := by
    simp [Content.data, Bof.data, leBytes_length]
  have h1 : Report.FieldReads (.text b!"Type" (GetRecordTypeStr 0x0809)) (b!"Type", .text b!"BOF") :=
    Report.text_reads rfl (Report.clear_recordType _)
  have h2 : Report.FieldReads (numF b!"Length" b.data.length) (b!"Length", .nat (Content.bof { b with highest := b.highest % 2 }).data.length) := by
    rw [hl]; exact Report.numF_reads rfl
  refine (Report.obj_fields (.cons h1 (.cons h2 ?_))).document
  show Pointwise Report.FieldReads _ [_, _, _, _, _, _, _, _, _, _, _, _, _, _, _, _, _, _]
  open Report in read_fields

example : (Content.bof { sampleBof with highest := 3 }).Valid ∧ 2 ≤ { sampleBof with highest := 3 }.highest :=
  ⟨⟨by decide, by decide, by decide, by decide, by decide, by decide, by decide, by decide⟩, by decide⟩

/-- C96 is false of the name of the user, and of code names, when it is stored with two bytes for each character, as it
has to be if one of them is not in Latin-1: of these bytes as many are shown as there are characters, and no JSON
document can be read (C91). -/
theorem C96_wide_wrong (abi : Abi) (fuel : Nat) (s : Bytes) (hs : 2 ≤ s.length) (hn : s.length < 2 ^ 15)
    (hq : 34 ∉ s ∧ 92 ∉ s) : ∃ text, Breaks text ∧
      simpleView abi fuel b!"WriteAccess" (XText.encode ⟨true, s⟩) = .ok (.writeAccess text) ∧
      simpleView abi fuel b!"CodeName" (XText.encode ⟨true, s⟩) = .ok (.codeName text) ∧
      RawText (Rec.make 0x005C (XText.encode ⟨true, s⟩) (.writeAccess text)) text := by
  have hw := wide_length s
  have hl : ((s.flatMap fun c => [c, 0]).take s.length).length = s.length := by
    rw [List.length_take, hw]; omega
  have hat : At (XText.encode ⟨true, s⟩) 0 (leBytes 2 ((s.flatMap fun c => [c, 0]).take s.length).length ++ [1] ++
      (s.flatMap fun c => [c, 0]).take s.length) := by
    refine ⟨[], (s.flatMap fun c => [c, 0]).drop s.length, ?_, rfl⟩
    rw [hl]
    show leBytes 2 s.length ++ [1] ++ (s.flatMap fun c => [c, 0]) = _
    rw [List.nil_append, List.append_assoc _ _ (List.drop _ _), List.take_append_drop]
  have hx := xlString_at hat (by omega) (by
    show (leBytes 2 s.length ++ [1] ++ (s.flatMap fun c => [c, 0])).length < _
    simp only [List.length_append, leBytes_length, List.length_singleton]
    omega)
  refine ⟨(s.flatMap fun c => [c, 0]).take s.length, .control (c := 0) ?_ (by decide) ?_ ?_, ?_, ?_, rfl⟩
  · match s, hs with
    | a :: b :: s, _ => simp [List.flatMap_cons]
  · intro h
    have := List.mem_of_mem_take h
    rw [List.mem_flatMap] at this
    obtain ⟨c, hc, h⟩ := this
    simp at h
    exact hq.1 (h ▸ hc)
  · intro h
    have := List.mem_of_mem_take h
    rw [List.mem_flatMap] at this
    obtain ⟨c, hc, h⟩ := this
    simp at h
    exact hq.2 (h ▸ hc)
  · show mkWriteAccess _ = _
    unfold mkWriteAccess
    rw [hx]; rfl
  · show mkCodeName _ = _
    unfold mkCodeName
    rw [hx]; rfl

/-- C96 is false of defined names: what they stand for is not shown, so that two names that differ in nothing else have
the same entries. -/
theorem C96_formula_wrong (abi : Abi) (fmt : Fmt) (l : Label) (f g : Bytes) (hf : (Content.label l f).Valid)
    (hg : (Content.label l g).Valid) (hl : f.length = g.length) :
    (Rec.make 0x0018 (l.data f) (.lbl l.name)).toJson abi fmt = (Rec.make 0x0018 (l.data g) (.lbl l.name)).toJson abi fmt ∧
    (Rec.make 0x0018 (l.data f) (.lbl l.name)).toXml abi fmt = (Rec.make 0x0018 (l.data g) (.lbl l.name)).toXml abi fmt := by
  have h1 : (Rec.make 0x0018 (l.data f) (.lbl l.name)).fields abi fmt = (Rec.make 0x0018 (l.data g) (.lbl l.name)).fields abi fmt := by
    have h1 := Report.lbl_fields hf
    rw [hl, ← Report.lbl_fields hg] at h1
    exact h1
  have h2 : (Rec.make 0x0018 (l.data f) (.lbl l.name)).baseFields = (Rec.make 0x0018 (l.data g) (.lbl l.name)).baseFields := by
    have : (l.data f).length = (l.data g).length := by simp [Label.data, leBytes_length, hl]
    simp [Rec.baseFields, Rec.make, this]
  unfold Rec.toJson Rec.toXml
  rw [h1, h2]
  exact ⟨rfl, rfl⟩

/-- C96 is false of shared strings with formatting: the description of the formatting behind a text is taken for the
next texts. -/
theorem C96_rich_wrong : simpleView Abi.linux 99 b!"SST" (leBytes 4 2 ++ leBytes 4 2 ++
      (leBytes 2 2 ++ [8] ++ leBytes 2 1 ++ b!"ab" ++ [1, 0, 0, 0]) ++ XText.encode ⟨false, b!"cd"⟩) =
    .ok (.sst 2 2 [b!"ab", [0]]) := by decide +kernel

/-- C96 is false of shared strings that go on in a `Continue` record: the strings are read only to the end of the first
record. -/
theorem C96_continued_wrong :
    ((ParseStream Abi.linux Fmt.zero 99 (stream [(Content.bof sampleBof).record,
      ⟨0x00FC, leBytes 4 2 ++ leBytes 4 2 ++ XText.encode ⟨false, b!"ab"⟩⟩, ⟨continueType, XText.encode ⟨false, b!"cd"⟩⟩] ++ [0])).1.master.map
        Rec.view) = [.bof, .sst 2 2 [b!"ab"], .plain] := by decide +kernel

end Fileid.Props
