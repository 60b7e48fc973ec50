import Verif.Lemmas.Book
import Verif.Props.RecordsMore

/-!
# C101: the report about a whole workbook
-/

namespace Fileid.Props

open Common Spec Spec.Biff Spec.Report Excel Oless Report

/-- C101: the kinds of sheets are shown by their names. -/
theorem C101_kinds (kind : Nat) : GetSheetTypeStr kind = nameOf sheetKinds b!"Unknown/Undocumented type" kind :=
  sheetKinds_eq kind

/-- C101: whether a sheet is hidden. -/
theorem C101_visibilities (state : Nat) :
    GetVisibilityStr state = nameOf visibilities b!"Unknown/Undocumented visiblitiy" state :=
  visibilities_eq state

theorem biff8_clear : ClearInfo biff8 := by
  constructor <;> (unfold Clear; decide)

/-! ## A workbook -/

def accountsOld : List Record :=
  [(Content.bof { sampleBof with kind := 0x10 }).record, (Other.row sampleRow).record, (Other.number 3 1 15 true 725).record, ⟨0x000A, []⟩]

/-- The name Rate is defined, without a formula. -/
def accountsLabel : Content :=
  .label { hidden := false, function := false, ob := false, proc := false, calcExp := false, builtin := false, group := 0,
           published := false, parameter := false, key := 0, sheet := 0, name := b!"Rate" } []

/-- The formula `7 = B4 + Rate` in C1, with the value false. -/
def accountsFormula : FormulaCell :=
  { row := 0, column := 2, format := 15, value := [1, 0, 0, 0, 0, 0, 0xFF, 0xFF], flags := ⟨true, false, false, false, 0⟩
    tokens := [([0x1E, 7, 0], b!"PtgInt(7)"), ([0x44, 3, 0, 1, 0xC0], b!"PtgRef(B4)"), ([0x43, 1, 0, 0, 0], b!"PtgName(Rate)"),
      ([0x03], b!"PtgAdd"), ([0x0B], b!"PtgEq")] }

theorem accountsFormula_cell : NamesCell b!"C1" accountsFormula.row accountsFormula.column := by
  rw [show (b!"C1" : Bytes) = cellRef 0 2 by decide +kernel]
  exact cellRef_names (by decide)

def accountsData : List Record :=
  [(Content.bof { sampleBof with kind := 0x20 }).record, (Other.protect true).record, accountsFormula.record, ⟨0x00E5, [3, 4]⟩]

/-- A workbook with a visible chart and a hidden sheet with a number in one cell, declared in the other order. -/
def accounts : Workbook :=
  { bof := (Content.bof sampleBof).record
    globals := [.other (Content.codePage 1252).record, .other accountsLabel.record, .sheet ⟨142, 0, 2, .narrow b!"Data"⟩, .sheet ⟨84, 1, 0, .narrow b!"Old"⟩,
      .other ⟨0x000A, []⟩]
    sheets := [accountsOld, accountsData] }

theorem accountsFormula_valid (num : Nat → Bytes) : accountsFormula.Valid num accounts.definedNames := by
  refine ⟨by decide, by decide, by decide, rfl, ?_, by decide +kernel⟩
  intro t ht
  simp only [accountsFormula, List.mem_cons, List.not_mem_nil, or_false] at ht
  rcases ht with rfl | rfl | rfl | rfl | rfl
  · rw [show (b!"PtgInt(7)" : Bytes) = b!"PtgInt(" ++ dec (littleEndian [7, 0]) ++ b!")" by decide +kernel]
    exact .int rfl
  · have hc : NamesCell b!"B4" 3 1 := by
      rw [show (b!"B4" : Bytes) = cellRef 3 1 by decide +kernel]
      exact cellRef_names (by decide)
    exact .ref (t := 0x44) (r := [3, 0]) (c := [1, 0xC0]) (Or.inr (Or.inl rfl)) rfl rfl hc
  · exact .name (t := 0x43) (d := [1, 0, 0, 0]) (n := b!"Rate") (Or.inr (Or.inl rfl)) rfl (by decide) (by decide) (by decide +kernel)
  · exact .op (by decide)
  · exact .op (by decide)

theorem accounts_cells : accounts.CellsInSheets := by
  intro g hg
  simp only [accounts, List.mem_cons, List.not_mem_nil, or_false] at hg
  rcases hg with rfl | rfl | rfl | rfl | rfl <;> decide +kernel

theorem accounts_valid : accounts.Valid := by
  constructor
  · unfold Record.Valid; decide +kernel
  · exact ⟨by decide, by decide +kernel, by decide +kernel⟩
  · intro d hd
    simp only [accounts, List.mem_cons, reduceCtorEq, false_or, GlobalRec.sheet.injEq, List.not_mem_nil, or_false] at hd
    rcases hd with rfl | rfl <;> exact ⟨by decide, by decide, fun cs h => by cases h⟩
  · intro r hr
    simp only [accounts, List.mem_cons, reduceCtorEq, false_or, GlobalRec.other.injEq, List.not_mem_nil, or_false] at hr
    rcases hr with rfl | rfl | rfl <;> decide
  · intro s hs
    simp only [accounts, List.mem_cons, List.not_mem_nil, or_false] at hs
    rcases hs with rfl | rfl <;> exact ⟨_, _, rfl, rfl⟩
  · decide
  · decide
  · decide +kernel
  · intro d hd
    have hd' : d = ⟨142, 0, 2, .narrow b!"Data"⟩ ∨ d = ⟨84, 1, 0, .narrow b!"Old"⟩ := by simpa [accounts, declared] using hd
    rcases hd' with rfl | rfl
    · exact ⟨accountsData, by decide +kernel⟩
    · exact ⟨accountsOld, by decide +kernel⟩

theorem accounts_decl {d : SheetDecl} (hd : d ∈ declared accounts.globals) :
    d = ⟨142, 0, 2, .narrow b!"Data"⟩ ∨ d = ⟨84, 1, 0, .narrow b!"Old"⟩ := by simpa [accounts, declared] using hd

theorem sampleBof_valid (k : Nat) (hk : k ∈ [5, 0x10, 0x20]) : (Content.bof { sampleBof with kind := k }).Valid := by
  simp only [List.mem_cons, List.not_mem_nil, or_false] at hk
  rcases hk with rfl | rfl | rfl <;>
    exact ⟨by decide +kernel, by decide, by decide, by decide, by decide, by decide, by decide, by decide⟩

theorem accounts_records {num : Nat → Bytes} {wide : Prop} : ∀ r ∈ accounts.records, (∃ v, Entry num wide accounts.definedNames r v) ∧ ∃ v, EntryX num wide accounts.definedNames r v := by
  have bof : ∀ k ∈ [5, 0x10, 0x20], (∃ v, Entry num wide accounts.definedNames (Content.bof { sampleBof with kind := k }).record v) ∧
      ∃ v, EntryX num wide accounts.definedNames (Content.bof { sampleBof with kind := k }).record v := fun k hk =>
    ⟨⟨_, .content (sampleBof_valid k hk) (Or.inl trivial) (fun b h => by cases h; exact (by decide : (1 : Nat) < 2))
      ⟨(fun s hs => by cases hs), fun s hs => by cases hs⟩⟩,
     ⟨_, .content (sampleBof_valid k hk) (Or.inl trivial) (fun b h => by cases h; exact (by decide : (1 : Nat) < 2)) (fun s hs => by cases hs)⟩⟩
  have sheet : ∀ d ∈ declared accounts.globals, (∃ v, Entry num wide accounts.definedNames d.record v) ∧ ∃ v, EntryX num wide accounts.definedNames d.record v := by
    intro d hd
    rcases accounts_decl hd with rfl | rfl
    · refine ⟨⟨_, .content (c := .sheet ⟨142, 0, 2, .narrow b!"Data"⟩) ⟨by decide +kernel, ⟨by decide, by decide, fun cs h => by cases h⟩⟩
        (Or.inl ⟨_, rfl⟩) (fun b h => by cases h) ⟨(fun s hs => by cases hs), by decide⟩⟩, ⟨_, .content (c := .sheet ⟨142, 0, 2, .narrow b!"Data"⟩)
        ⟨by decide +kernel, ⟨by decide, by decide, fun cs h => by cases h⟩⟩ (Or.inl ⟨_, rfl⟩) (fun b h => by cases h) ?_⟩⟩
      show ∀ s ∈ [b!"Data"], _
      unfold LegalText XmlUnit
      decide
    · refine ⟨⟨_, .content (c := .sheet ⟨84, 1, 0, .narrow b!"Old"⟩) ⟨by decide +kernel, ⟨by decide, by decide, fun cs h => by cases h⟩⟩
        (Or.inl ⟨_, rfl⟩) (fun b h => by cases h) ⟨(fun s hs => by cases hs), by decide⟩⟩, ⟨_, .content (c := .sheet ⟨84, 1, 0, .narrow b!"Old"⟩)
        ⟨by decide +kernel, ⟨by decide, by decide, fun cs h => by cases h⟩⟩ (Or.inl ⟨_, rfl⟩) (fun b h => by cases h) ?_⟩⟩
      show ∀ s ∈ [b!"Old"], _
      unfold LegalText XmlUnit
      decide
  have other : ∀ o ∈ sampleOthers, (∃ v, Entry num wide accounts.definedNames o.record v) ∧ ∃ v, EntryX num wide accounts.definedNames o.record v := by
    intro o ho
    obtain ⟨v, _, hv⟩ := other_shown Abi.linux 0 (sampleOthers_valid o ho)
    obtain ⟨_, facts, _, _, hf⟩ := hv Fmt.zero
    exact ⟨⟨_, .other (sampleOthers_valid o ho) hf⟩, ⟨_, .other (sampleOthers_valid o ho) hf⟩⟩
  have plain : ∀ r : Record, r.type ∉ interpreted → r.type ∉ bofTypes → (∃ v, Entry num wide accounts.definedNames r v) ∧ ∃ v, EntryX num wide accounts.definedNames r v :=
    fun r h1 h2 => ⟨⟨_, .plain h1 h2⟩, ⟨_, .plain h1 h2⟩⟩
  intro r hr
  simp only [Workbook.records, Workbook.head, accounts, accountsOld, accountsData, List.map_cons, List.map_nil, List.flatten_cons,
    List.flatten_nil, List.append_nil, List.cons_append, List.nil_append, List.mem_cons, List.not_mem_nil, or_false, GlobalRec.record] at hr
  rcases hr with rfl | rfl | rfl | rfl | rfl | rfl | rfl | rfl | rfl | rfl | rfl | rfl | rfl | rfl
  · exact bof 5 (by simp)
  · exact ⟨⟨_, .content (c := .codePage 1252) ⟨by decide +kernel, by decide⟩ (Or.inl trivial) (fun b h => by cases h)
      ⟨(fun s hs => by cases hs), fun s hs => by cases hs⟩⟩,
     ⟨_, .content (c := .codePage 1252) ⟨by decide +kernel, by decide⟩ (Or.inl trivial) (fun b h => by cases h) (fun s hs => by cases hs)⟩⟩
  · have hval : accountsLabel.Valid := ⟨by decide +kernel, by decide, by decide, by decide, fun _ => [], fun _ _ => none, [], by simp, rfl⟩
    refine ⟨⟨_, .content hval (Or.inl trivial) (fun b h => by cases h) ⟨(fun s hs => by cases hs), by decide⟩⟩,
      ⟨_, .content hval (Or.inl trivial) (fun b h => by cases h) ?_⟩⟩
    show ∀ s ∈ [b!"Rate"], _
    unfold LegalText XmlUnit
    decide
  · exact sheet ⟨142, 0, 2, .narrow b!"Data"⟩ (by simp [accounts, declared])
  · exact sheet ⟨84, 1, 0, .narrow b!"Old"⟩ (by simp [accounts, declared])
  · exact plain _ (by decide) (by decide)
  · exact bof 0x10 (by simp)
  · exact other _ (by simp [sampleOthers])
  · exact other _ (by simp [sampleOthers])
  · exact plain _ (by decide) (by decide)
  · exact bof 0x20 (by simp)
  · exact other _ (by simp [sampleOthers])
  · exact ⟨⟨_, .formula (accountsFormula_valid num) accountsFormula_cell .false (by decide) (by decide)⟩,
      ⟨_, .formula (accountsFormula_valid num) accountsFormula_cell .false
        (by unfold LegalText XmlUnit; decide)⟩⟩
  · exact plain _ (by decide) (by decide)

/-! ## The report -/

/-- C101 for JSON: a workbook as described by `Workbook.Valid` whose records all have entries, followed by one to four
further bytes. A result is made; if what else is told of the file can be written, it is printed; and the report then is a document that tells that the file is a BIFF8
workbook, lists the records that describe it, the declared sheets with name, kind, visibility and position, and under
each sheet the records of its substream, every record with what it says, in their order. Missing: records that
the program does not show (`Entry`), among them cells with texts, blank cells, and links. -/
theorem C101_json_partial (abi : Abi) (env : Env) (w : Workbook) (tail : Bytes) (hw : w.Valid)
    (hn : ∀ d ∈ declared w.globals, (d.Narrow ∨ abi.wcharBytes = 2) ∧ 0 ∉ d.name.text)
    (hc : w.CellsInSheets) (hr : ∀ r ∈ w.records, ∃ v, Entry env.fmt.f64 (abi.wcharBytes = 2) w.definedNames r v)
    (hlen : (stream w.records ++ tail).length + 4 ≤ 2 ^ 32) (ht : 0 < tail.length ∧ tail.length ≤ 4)
    (hfuel : w.records.length < env.fuel ∧ 2 ^ 16 ≤ env.fuel) :
    ∃ i, Excel.Detailer abi env.fmt env.what env.fuel (stream w.records ++ tail) = .ok i ∧
      (∀ x b, baseJson abi env biff8 x = .ok b → ∃ t, (Result.excel i x).toJson abi env = .ok t) ∧
      ∀ x : Extra, (∀ g ∈ x.properties, ∀ p ∈ g.2, NumberReal env.props.real p) → ∀ name t, 0 ∉ name →
        report abi env .json name [.excel i x] = .ok t →
        ∃ ms ws, Carried env.props.real x.paths x.properties ms ∧ w.Shown env.fmt.f64 (abi.wcharBytes = 2) ws ∧
          jsonDocument t = some (JVal.obj [(b!"name", .text name),
            (b!"extensions", .arr [.obj (identity biff8 ++ ms ++ ws)])]).events := by
  obtain ⟨i, hi, hm⟩ := book_made (abi := abi) (fmt := env.fmt) (what := env.what) (fuel := env.fuel) (tail := tail) hw (fun d hd => (hn d hd).1)
    (fun r h => by obtain ⟨v, hv⟩ := hr r h; exact entry_whole hv)
    (fun r h q hq => by
      obtain ⟨v, hv⟩ := hr r (List.mem_cons_of_mem _ h)
      obtain ⟨⟨_, h2, h3⟩, _⟩ := entry_prints hv hfuel.2 hq
      rw [h2, h3]) hc (fun r h => by
      obtain ⟨v, hv⟩ := hr r (List.mem_cons_of_mem _ (List.mem_append_left _ h))
      exact entry_label hv) hlen ht hfuel
  obtain ⟨h1, h2⟩ := made_json hm hw (fun d hd => (hn d hd).2) hr hfuel.2
  refine ⟨i, hi, fun x b hb => ?_, fun x hx name t hname h => ?_⟩
  · unfold Result.toJson
    dsimp only
    rw [hm.base, hb, Res.bind_ok]
    exact h1 b
  · obtain ⟨vs, hvs, hdoc⟩ := report_json (S := fun _ v => ∃ ms ws, Carried env.props.real x.paths x.properties ms ∧
        w.Shown env.fmt.f64 (abi.wcharBytes = 2) ws ∧ v = .obj (identity biff8 ++ ms ++ ws)) hname (fun r hr t ht => by
      rw [List.mem_singleton] at hr
      subst hr
      unfold Result.toJson at ht
      obtain ⟨b, hb, ht⟩ := Excel.bind_ok_inv ht
      rw [hm.base] at hb
      obtain ⟨m, ms, paths, groups, rfl, g1, g2, g3⟩ := base_reads biff8_clear hx hb
      rw [List.append_assoc] at g1
      obtain ⟨ws, g4, g5⟩ := h2 g1 ht
      exact ⟨_, g4, _, ws, ⟨paths, groups, rfl, g2, g3⟩, g5, rfl⟩) h
    cases hvs with
    | cons hv hnil =>
      cases hnil
      obtain ⟨ms, ws, g1, g2, rfl⟩ := hv
      exact ⟨ms, ws, g1, g2, hdoc⟩

/-- The workbook of the sample is reported so. -/
example (abi : Abi) (env : Env) (hfuel : 2 ^ 16 ≤ env.fuel) :
    ∃ i, Excel.Detailer abi env.fmt env.what env.fuel (stream accounts.records ++ [0]) = .ok i ∧
      ∃ t ws, report abi env .json b!"accounts.xls" [.excel i {}] = .ok t ∧ accounts.Shown env.fmt.f64 (abi.wcharBytes = 2) ws ∧
        jsonDocument t = some (JVal.obj [(b!"name", .text b!"accounts.xls"),
          (b!"extensions", .arr [.obj (identity biff8 ++ ws)])]).events := by
  obtain ⟨i, h1, h2, h3⟩ := C101_json_partial abi env accounts [0] accounts_valid
    (fun d hd => by rcases accounts_decl hd with rfl | rfl <;> exact ⟨Or.inl ⟨_, rfl⟩, by decide⟩) accounts_cells
    (fun r hr => (accounts_records r hr).1) (by decide +kernel) (by decide)
    ⟨Nat.lt_of_lt_of_le (by decide +kernel) hfuel, hfuel⟩
  obtain ⟨t, ht⟩ := h2 {} _ rfl
  have hrep : ∃ t, report abi env .json b!"accounts.xls" [.excel i {}] = .ok t := by
    unfold report
    rw [show mapRes (fun r => r.print abi env .json) [Result.excel i {}] = .ok [t] from by
      show ((Result.excel i {}).toJson abi env).bind _ = _
      rw [ht]
      rfl]
    exact ⟨_, rfl⟩
  obtain ⟨t', ht'⟩ := hrep
  obtain ⟨ms, ws, ⟨paths, groups, hms, hp, hg⟩, hws, hdoc⟩ := h3 {} (by simp) b!"accounts.xls" t' (by decide) ht'
  cases hp
  cases hg
  rw [hms] at hdoc
  exact ⟨i, h1, t', ws, ht', hws, by simpa [Report.listed] using hdoc⟩

/-- C101 for XML. -/
theorem C101_xml_partial (abi : Abi) (env : Env) (w : Workbook) (tail : Bytes) (hw : w.Valid)
    (hn : ∀ d ∈ declared w.globals, (d.Narrow ∨ abi.wcharBytes = 2) ∧
      LegalText d.name.text ∧ 60 ∉ d.name.text ∧ 62 ∉ d.name.text)
    (hc : w.CellsInSheets) (hr : ∀ r ∈ w.records, ∃ v, EntryX env.fmt.f64 (abi.wcharBytes = 2) w.definedNames r v)
    (hlen : (stream w.records ++ tail).length + 4 ≤ 2 ^ 32) (ht : 0 < tail.length ∧ tail.length ≤ 4)
    (hfuel : w.records.length < env.fuel ∧ 2 ^ 16 ≤ env.fuel) :
    ∃ i, Excel.Detailer abi env.fmt env.what env.fuel (stream w.records ++ tail) = .ok i ∧
      (∀ x b, baseXml abi env biff8 x = .ok b → ∃ t, (Result.excel i x).toXml abi env = .ok t) ∧
      ∀ x : Extra, LegalExtra env.props.real x → ∀ name t, (∀ c ∈ name, XmlUnit c.toNat ∧ c ≠ 60 ∧ c ≠ 62) →
        report abi env .xml name [.excel i x] = .ok t →
        ∃ us ws, CarriedX env.props.real x.paths x.properties us ∧ w.ShownX env.fmt.f64 (abi.wcharBytes = 2) ws ∧
          xmlDocument t = some (XVal.elem b!"file" [.leaf b!"name" name,
            .elem b!"extensions" [.elem b!"item" (identityX biff8 ++ us ++ ws)]]).events := by
  obtain ⟨i, hi, hm⟩ := book_made (abi := abi) (fmt := env.fmt) (what := env.what) (fuel := env.fuel) (tail := tail) hw (fun d hd => (hn d hd).1)
    (fun r h => by obtain ⟨v, hv⟩ := hr r h; exact entryX_whole hv)
    (fun r h q hq => by
      obtain ⟨v, hv⟩ := hr r (List.mem_cons_of_mem _ h)
      obtain ⟨⟨_, h2, h3⟩, _⟩ := entryX_prints hv hfuel.2 hq
      rw [h2, h3]) hc (fun r h => by
      obtain ⟨v, hv⟩ := hr r (List.mem_cons_of_mem _ (List.mem_append_left _ h))
      exact entryX_label hv) hlen ht hfuel
  obtain ⟨h1, h2⟩ := made_xml hm hw (fun d hd => (hn d hd).2) hr hfuel.2
  refine ⟨i, hi, fun x b hb => ?_, fun x hx name t hname h => ?_⟩
  · unfold Result.toXml
    dsimp only
    rw [hm.base, hb, Res.bind_ok]
    exact h1 b
  · obtain ⟨n, vs, hvs, hnm, hdoc⟩ := report_xml (S := fun _ v => ∃ us ws, CarriedX env.props.real x.paths x.properties us ∧
        w.ShownX env.fmt.f64 (abi.wcharBytes = 2) ws ∧ v = .elem b!"item" (identityX biff8 ++ us ++ ws))
        (LegalText.legal fun c hc => (hname c hc).1) (fun r hr t ht => by
      rw [List.mem_singleton] at hr
      subst hr
      unfold Result.toXml at ht
      obtain ⟨b, hb, ht⟩ := Excel.bind_ok_inv ht
      rw [hm.base] at hb
      obtain ⟨us, g1, g2⟩ := carriedX_reads biff8_clear hx.1 hx.2 hb
      obtain ⟨ws, g4, g5⟩ := h2 g1 ht
      exact ⟨_, g4, us, ws, g2, g5, rfl⟩) h
    rw [hnm fun c hc => (hname c hc).2] at hdoc
    cases hvs with
    | cons hv hnil =>
      cases hnil
      obtain ⟨us, ws, g1, g2, rfl⟩ := hv
      exact ⟨us, ws, g1, g2, hdoc⟩

/-- The workbook of the sample is reported so. -/
example (abi : Abi) (env : Env) (hfuel : 2 ^ 16 ≤ env.fuel) :
    ∃ i, Excel.Detailer abi env.fmt env.what env.fuel (stream accounts.records ++ [0]) = .ok i ∧
      ∃ t ws, report abi env .xml b!"accounts.xls" [.excel i {}] = .ok t ∧ accounts.ShownX env.fmt.f64 (abi.wcharBytes = 2) ws ∧
        xmlDocument t = some (XVal.elem b!"file" [.leaf b!"name" b!"accounts.xls",
          .elem b!"extensions" [.elem b!"item" (identityX biff8 ++ ws)]]).events := by
  obtain ⟨i, h1, h2, h3⟩ := C101_xml_partial abi env accounts [0] accounts_valid
    (fun d hd => by rcases accounts_decl hd with rfl | rfl <;> exact ⟨Or.inl ⟨_, rfl⟩, by unfold LegalText XmlUnit; decide⟩) accounts_cells
    (fun r hr => (accounts_records r hr).2) (by decide +kernel) (by decide)
    ⟨Nat.lt_of_lt_of_le (by decide +kernel) hfuel, hfuel⟩
  obtain ⟨t, ht⟩ := h2 {} _ rfl
  have hrep : ∃ t, report abi env .xml b!"accounts.xls" [.excel i {}] = .ok t := by
    unfold report
    rw [show mapRes (fun r => r.print abi env .xml) [Result.excel i {}] = .ok [t] from by
      show ((Result.excel i {}).toXml abi env).bind _ = _
      rw [ht]
      rfl]
    exact ⟨_, rfl⟩
  obtain ⟨t', ht'⟩ := hrep
  obtain ⟨us, ws, ⟨paths, groups, hms, hp, hg⟩, hws, hdoc⟩ := h3 {} ⟨by simp, by simp⟩ b!"accounts.xls" t'
    (by unfold XmlUnit; decide) ht'
  cases hp
  cases hg
  rw [hms] at hdoc
  exact ⟨i, h1, t', ws, ht', hws, by simpa [filled, commas] using hdoc⟩

end Fileid.Props
