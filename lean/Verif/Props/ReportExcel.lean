import Verif.Props.Report
import Verif.Lemmas.ReportBad
import Verif.Props.Workbook
import Verif.Props.VbaProjectFalse

/-!
# C91: the reports about workbooks are documents that show every record
-/

namespace Fileid.Props

open Common Spec Spec.Report Oless Report

theorem detailer_clear {abi : Abi} {fmt : Excel.Fmt} {what : Excel.What} {fuel : Nat} {stream : Bytes} {i : Excel.ExcelInfo}
    (h : Excel.Detailer abi fmt what fuel stream = .ok i) : ClearInfo i.base := by
  unfold Excel.Detailer at h
  dsimp only at h
  obtain ⟨_, _, h⟩ := Excel.bind_ok_inv h
  split at h
  · cases h
  · cases h
    exact mk_clear (clear_lit _ (by decide)) (clear_lit _ (by decide)) (clear_excelVersion _) (clear_excelVersion _)

/-- Whenever a workbook stream is read and the result printed, the output is a JSON document that shows every record
(type, length, names, texts and numbers) of the workbook and of each sheet, in order. Missing: texts that are written
without escaping though they need it, see below. -/
theorem C91_json_partial (abi : Abi) (env : Env) (stream : Bytes) (i : Excel.ExcelInfo)
    (hd : Excel.Detailer abi env.fmt env.what env.fuel stream = .ok i) (hf : NumberFmt env.fmt)
    (hr : ∀ r ∈ i.eng.master, ClearRecord r) (he : Clear i.error) (name : Bytes) (hn : 0 ∉ name) (t : Bytes)
    (ht : report abi env .json name [.excel i {}] = .ok t) :
    ∃ ws, WorkbookShown i ws ∧ jsonDocument t = some (JVal.obj [(b!"name", .text name),
      (b!"extensions", .arr [.obj (identity i.base ++ ws)])]).events := by
  have hb := detailer_clear hd
  obtain ⟨vs, h1, h2⟩ := report_json (S := ResultShown env.props.real) hn (fun r hm t ht => by
    rw [List.mem_singleton] at hm
    subst hm
    exact result_json hb ⟨fun g hg => absurd hg (by simp), hf, hr, he⟩ ht) ht
  cases h1 with
  | cons h h' =>
  cases h'
  obtain ⟨ms, ws, rfl, hc, hw⟩ := h
  obtain ⟨ps, gs, rfl, hps, hgs⟩ := hc
  cases hps
  cases hgs
  exact ⟨ws, hw, by simpa [Spec.Report.listed] using h2⟩

/-- The same for XML. Missing also: characters that may not stand in XML. -/
theorem C91_xml_partial (abi : Abi) (env : Env) (stream : Bytes) (i : Excel.ExcelInfo)
    (hd : Excel.Detailer abi env.fmt env.what env.fuel stream = .ok i) (hf : ClearFmt env.fmt)
    (hr : ∀ r ∈ i.eng.master, ClearRecord r ∧ LegalRecord r) (hs : ∀ s ∈ i.eng.sheets, LegalText s.Name)
    (he : Clear i.error) (name : Bytes) (hn : Clear name) (t : Bytes)
    (ht : report abi env .xml name [.excel i {}] = .ok t) :
    ∃ ws, WorkbookShownX i ws ∧ xmlDocument t = some (XVal.elem b!"file" [.leaf b!"name" name,
      .elem b!"extensions" [.elem b!"item" (identityX i.base ++ ws)]]).events := by
  have hb := detailer_clear hd
  obtain ⟨n, vs, h1, hname, h2⟩ := report_xml (S := ResultShownX env.props.real) (Clear.legal hn) (fun r hm t ht => by
    rw [List.mem_singleton] at hm
    subst hm
    exact result_xml hb ⟨⟨fun p hp => absurd hp (by simp), fun g hg => absurd hg (by simp)⟩, hf, hr, hs, he⟩ ht) ht
  rw [hname fun c hc => ⟨(hn c hc).2.2.2.2.2.1, (hn c hc).2.2.2.2.2.2⟩] at h2
  cases h1 with
  | cons h h' =>
  cases h'
  obtain ⟨ms, ws, rfl, hc, hw⟩ := h
  obtain ⟨ps, gs, rfl, hps, hgs⟩ := hc
  cases hps
  cases hgs
  exact ⟨ws, hw, by simpa [filled, commas, XVal.leaf, codes] using h2⟩

/-! ## Where C91 is false -/

/-- A JSON report is no document when a name of the workbook globals that is written as it is breaks it, and the
records before it are in order. -/
theorem C91_json_false (abi : Abi) (env : Env) (stream : Bytes) (i : Excel.ExcelInfo)
    (hd : Excel.Detailer abi env.fmt env.what env.fuel stream = .ok i) (hf : NumberFmt env.fmt)
    (pre post : List Nat) (k : Nat) (hg : i.eng.global = pre ++ k :: post)
    (hpre : ∀ j ∈ pre, ∀ r, i.eng.master[j]? = some r → ClearRecord r)
    (r : Excel.Rec) (hr : i.eng.master[k]? = some r) (s : Bytes) (hs : RawText r s) (hb : Breaks s)
    (x : Extra) (hx : ∀ g ∈ x.properties, ∀ p ∈ g.2, NumberReal env.props.real p)
    (rs : List Result) (name : Bytes) (hn : 0 ∉ name) (t : Bytes) (ht : report abi env .json name (.excel i x :: rs) = .ok t) :
    jsonDocument t = none := by
  unfold report at ht
  obtain ⟨ts, hts, ht⟩ := Excel.bind_ok_inv ht
  injection ht with ht
  have hpw := mapRes_pointwise hts
  cases hpw with
  | cons h0 _ =>
  rename_i t0 ts _
  change Result.toJson abi env (.excel i x) = .ok t0 at h0
  unfold Result.toJson at h0
  obtain ⟨b, hbase, h0⟩ := Excel.bind_ok_inv h0
  obtain ⟨m, ms, paths, groups, rfl, h1, _, _⟩ := base_reads (detailer_clear hd) hx hbase
  have bad := workbook_bad hf hg hpre hr hs hb h1 h0
  have e1 : run jsonStep (.value, []) b!"{\"name\":\"" =
      some ((.inStr false [] false, [true]), [.startObj, .key (chars b!"name")]) := rfl
  have e2 := run_jsonStr false [true] (JsonEscape name) _ (C10_json_escape_lossless_partial name hn)
  have e3 : run jsonStep (.after, [true]) (b!"," ++ b!"\"" ++ b!"extensions" ++ b!"\":[") =
      some ((.valueOrEnd, [false, true]), [.key (chars b!"extensions"), .startArr]) := rfl
  have e := run_append (run_append e1 e2) e3
  have : run jsonStep (.value, []) t = none := by
    rw [← ht]
    have := run_after_bad e (bad .valueOrEnd [false, true] (jsonItems false (ts.map fun t => (⟨{}, t, t, t, t⟩ : Item)) ++ b!"]}") (Or.inr rfl))
    simpa [Output, jsonItems] using this
  unfold jsonDocument
  rw [this]

/-- An XML report likewise, when such a name has a character that may not stand in XML. -/
theorem C91_xml_false (abi : Abi) (env : Env) (stream : Bytes) (i : Excel.ExcelInfo)
    (hd : Excel.Detailer abi env.fmt env.what env.fuel stream = .ok i) (hf : ClearFmt env.fmt)
    (pre post : List Nat) (k : Nat) (hg : i.eng.global = pre ++ k :: post)
    (hpre : ∀ j ∈ pre, ∀ r, i.eng.master[j]? = some r → ClearRecord r ∧ LegalRecord r)
    (r : Excel.Rec) (hr : i.eng.master[k]? = some r) (s : Bytes) (hs : RawText r s) (hb : BreaksX s)
    (x : Extra) (hx : LegalExtra env.props.real x)
    (rs : List Result) (name : Bytes) (t : Bytes) (ht : report abi env .xml name (.excel i x :: rs) = .ok t) :
    xmlDocument t = none := by
  unfold report at ht
  obtain ⟨ts, hts, ht⟩ := Excel.bind_ok_inv ht
  injection ht with ht
  have hpw := mapRes_pointwise hts
  cases hpw with
  | cons h0 _ =>
  rename_i t0 ts _
  change Result.toXml abi env (.excel i x) = .ok t0 at h0
  unfold Result.toXml at h0
  obtain ⟨b, hbase, h0⟩ := Excel.bind_ok_inv h0
  obtain ⟨us, h1, _⟩ := carriedX_reads (detailer_clear hd) hx.1 hx.2 hbase
  have bad := workbookX_bad hf hg hpre hr hs hb h1 h0
  have : run xmlStep (.text, []) t = none := by
    rw [← ht]
    have e1 := run_open (n := b!"file") (by decide) []
    have tail : ∀ u, run xmlStep (.text, [b!"file"]) (b!"<name>" ++ XmlEscape name ++ b!"</name><extensions>" ++ (t0 ++ u)) = none := by
      intro u
      cases hl : xmlLegal name with
      | false =>
        have := run_after_bad (run_open (n := b!"name") (by decide) [b!"file"])
          (run_bad_append (b := b!"</name><extensions>" ++ (t0 ++ u)) (run_escape_illegal b!"name" [b!"file"] hl))
        simpa using this
      | true =>
        have hname := xreads_elem (n := b!"name") (by decide) (xreads_escape hl) b!"file" []
        have := run_after_bad hname (run_after_bad (run_open (n := b!"extensions") (by decide) [b!"file"])
          (run_bad_append (b := u) (bad b!"extensions" [b!"file"])))
        simpa [elemText] using this
    have := run_after_bad e1 (tail ((ts.map fun t => t).flatten ++ b!"</extensions></file>"))
    simpa [Output, Function.comp_def] using this
  unfold xmlDocument
  rw [this]

/-- Every record that links to another workbook is such a one: its path is taken from the byte that tells the width of
the characters, which is 0 or 1, so the text begins with a control character. -/
theorem C91_link_path (data : Bytes) (cch : Nat) (v : Excel.View) (hc : Num data 2 2 cch) (h1 : 1 ≤ cch) (h2 : cch ≤ 255)
    (flag : UInt8) (hflag : data[4]? = some flag) (hv : Excel.mkSupBook data = .ok v) :
    ∃ ctab rest, v = .supBook ctab cch (some (flag :: rest)) [] := by
  unfold Excel.mkSupBook at hv
  have hl : 4 < data.length := (List.getElem?_eq_some_iff.1 hflag).1
  obtain ⟨ctab, _, hv⟩ := Excel.bind_ok_inv hv
  have hread : ReadUShort data data.length 2 = .ok cch := readUShort_num hc (by omega) (by omega)
  rw [hread, Res.bind_ok] at hv
  unfold Excel.supBookPath at hv
  rw [if_pos ⟨hl, h1, h2⟩] at hv
  obtain ⟨vp, hvp, hv⟩ := Excel.bind_ok_inv hv
  obtain ⟨s, hs, hvp⟩ := Excel.bind_ok_inv hvp
  injection hvp with hvp
  subst hvp
  rw [if_neg (by omega)] at hv
  injection hv with hv
  unfold ReadString at hs
  split at hs
  · cases hs
  · unfold rdRange at hs
    split at hs
    · injection hs with hs
      refine ⟨ctab, (data.drop 5).take (cch - 1), ?_⟩
      rw [← hv, ← hs]
      have : data.drop 4 = flag :: data.drop 5 := by
        rw [List.drop_eq_getElem_cons hl, (List.getElem?_eq_some_iff.1 hflag).2]
      obtain ⟨n, rfl⟩ : ∃ n, cch = n + 1 := ⟨cch - 1, by omega⟩
      rw [this, List.take_succ_cons]
      rfl
    · cases hs

namespace Sample

def plainEnv : Env := ⟨Excel.Fmt.zero, fun _ => b!"error", fun _ => b!"error", ⟨fun _ => b!"0", false⟩, 99⟩

theorem plain_number : NumberFmt plainEnv.fmt := by
  intro n _
  show jsonNumber b!"0" = true ∧ ∀ c ∈ b!"0", isDelim c = false
  decide

theorem plain_clear : ClearFmt plainEnv.fmt := by
  refine ⟨fun n => ?_, fun n => ?_⟩
  · show Clear b!"0"
    decide
  · show Clear b!"0.000000"
    decide

def bof : Biff.Record := ⟨Biff.bofType, [0, 6, 5, 0, 1, 2, 3, 4, 5, 6, 7, 8, 9, 10, 11, 12]⟩

/-- A workbook with code page, user name and a sheet. -/
def plainBook : Bytes := Biff.stream [bof, ⟨0x0042, [0xb0, 4]⟩, ⟨0x005C, [2, 0, 0, 109, 101]⟩,
  ⟨0x0085, [53, 0, 0, 0, 0, 0, 2, 0, 83, 104]⟩, ⟨0x000A, []⟩, bof, ⟨0x000A, []⟩] ++ [0]

/-- A workbook that links to another, "ab". -/
def linkBook : Bytes := Biff.stream [bof,
  ⟨0x01AE, [1, 0, 3, 0, 0, 1, 97, 98]⟩, ⟨0x000A, []⟩] ++ [0]

theorem plain_read : ∃ i, Excel.Detailer Abi.windows plainEnv.fmt plainEnv.what plainEnv.fuel plainBook = .ok i ∧
    i.eng.master.map (·.view) = [.bof, .codePage 1200, .writeAccess b!"me", .boundSheet8 b!"Sh", .plain, .bof, .plain] ∧
    i.eng.sheets.map (·.Name) = [b!"Sh"] ∧ i.error = [] ∧
    (∃ t, report Abi.windows plainEnv .json b!"f" [.excel i {}] = .ok t) ∧
    ∃ t, report Abi.windows plainEnv .xml b!"f" [.excel i {}] = .ok t := by
  have h : good (fun i => decide (i.eng.master.map (·.view) =
      [.bof, .codePage 1200, .writeAccess b!"me", .boundSheet8 b!"Sh", .plain, .bof, .plain]) &&
    decide (i.eng.sheets.map (·.Name) = [b!"Sh"]) && decide (i.error = []) &&
    good (fun _ => true) (report Abi.windows plainEnv .json b!"f" [.excel i {}]) &&
    good (fun _ => true) (report Abi.windows plainEnv .xml b!"f" [.excel i {}]))
    (Excel.Detailer Abi.windows plainEnv.fmt plainEnv.what plainEnv.fuel plainBook) = true := by decide +kernel
  obtain ⟨i, hi, h⟩ := good_ok h
  simp only [Bool.and_eq_true, decide_eq_true_eq] at h
  obtain ⟨⟨⟨⟨h1, h2⟩, h3⟩, h4⟩, h5⟩ := h
  obtain ⟨t, ht, _⟩ := good_ok h4
  obtain ⟨u, hu, _⟩ := good_ok h5
  exact ⟨i, hi, h1, h2, h3, ⟨t, ht⟩, u, hu⟩

theorem views {l : List Excel.Rec} {vs : List Excel.View} (h : l.map (·.view) = vs) {P : Excel.View → Prop}
    (hp : ∀ v ∈ vs, P v) : ∀ r ∈ l, P r.view := by
  intro r hr
  exact hp _ (by rw [← h]; exact List.mem_map_of_mem hr)

end Sample

/-- The hypotheses of `C91_json_partial` and `C91_xml_partial` hold of it. -/
example : ∃ i t u, Excel.Detailer Abi.windows Sample.plainEnv.fmt Sample.plainEnv.what Sample.plainEnv.fuel Sample.plainBook = .ok i ∧
    report Abi.windows Sample.plainEnv .json b!"f" [.excel i {}] = .ok t ∧
    report Abi.windows Sample.plainEnv .xml b!"f" [.excel i {}] = .ok u ∧
    (∃ ws, WorkbookShown i ws ∧ jsonDocument t = some (JVal.obj [(b!"name", .text b!"f"),
      (b!"extensions", .arr [.obj (identity i.base ++ ws)])]).events) ∧
    ∃ ws, WorkbookShownX i ws ∧ xmlDocument u = some (XVal.elem b!"file" [.leaf b!"name" b!"f",
      .elem b!"extensions" [.elem b!"item" (identityX i.base ++ ws)]]).events := by
  obtain ⟨i, hi, h1, h2, h3, ⟨t, ht⟩, u, hu⟩ := Sample.plain_read
  have hr : ∀ r ∈ i.eng.master, ClearRecord r ∧ LegalRecord r := by
    refine Sample.views h1 (P := fun v => (match v with
      | .externName (some s) => Clear s
      | .writeAccess s => Clear s
      | .fnGroupName s => Clear s
      | .codeName s => Clear s
      | .supBook _ _ path l => (∀ s, path = some s → Clear s) ∧ ∀ s ∈ l, Clear s
      | _ => True) ∧ (match v with
      | .formula _ _ _ _ _ formula => LegalText formula
      | .lbl name => LegalText name
      | .boundSheet8 name => LegalText name
      | .sst _ _ l => ∀ s ∈ l, LegalText s
      | .labelSst _ v => ∀ s, v = some s → LegalText s
      | .filePass p => ∀ u ∈ p.cspName, XmlUnit u ∨ u = 0
      | _ => True)) ?_
    intro v hv
    simp only [List.mem_cons, List.not_mem_nil, or_false] at hv
    rcases hv with rfl | rfl | rfl | rfl | rfl | rfl | rfl
    · exact ⟨trivial, trivial⟩
    · exact ⟨trivial, trivial⟩
    · exact ⟨by show Clear b!"me"; decide, trivial⟩
    · exact ⟨trivial, by show LegalText b!"Sh"; unfold LegalText; decide⟩
    · exact ⟨trivial, trivial⟩
    · exact ⟨trivial, trivial⟩
    · exact ⟨trivial, trivial⟩
  have hs : ∀ s ∈ i.eng.sheets, LegalText s.Name := by
    intro s hm
    have : s.Name ∈ i.eng.sheets.map (·.Name) := List.mem_map_of_mem hm
    rw [h2, List.mem_singleton] at this
    rw [this]
    unfold LegalText
    decide
  have he : Clear i.error := by rw [h3]; exact clear_nil
  exact ⟨i, t, u, hi, ht, hu,
    C91_json_partial _ _ _ _ hi Sample.plain_number (fun r hm => (hr r hm).1) he _ (by decide) _ ht,
    C91_xml_partial _ _ _ _ hi Sample.plain_clear hr hs he _ (by decide) _ hu⟩

/-- The hypotheses of `C91_json_false`, `C91_xml_false` and `C91_link_path` hold of a workbook that links to another:
neither report is a document. -/
example : ∃ i t u, Excel.Detailer Abi.windows Sample.plainEnv.fmt Sample.plainEnv.what Sample.plainEnv.fuel Sample.linkBook = .ok i ∧
    report Abi.windows Sample.plainEnv .json b!"f" [.excel i {}] = .ok t ∧ jsonDocument t = none ∧
    report Abi.windows Sample.plainEnv .xml b!"f" [.excel i {}] = .ok u ∧ xmlDocument u = none := by
  have h : Sample.good (fun i => decide (i.eng.global = [0, 1, 2]) && decide (i.eng.master[0]?.map (·.view) = some .bof) &&
      decide (i.eng.master[1]?.map (·.view) = some (.supBook 1 3 (some [0, 1, 97]) [])) &&
    Sample.good (fun _ => true) (report Abi.windows Sample.plainEnv .json b!"f" [.excel i {}]) &&
    Sample.good (fun _ => true) (report Abi.windows Sample.plainEnv .xml b!"f" [.excel i {}]))
    (Excel.Detailer Abi.windows Sample.plainEnv.fmt Sample.plainEnv.what Sample.plainEnv.fuel Sample.linkBook) = true := by decide +kernel
  obtain ⟨i, hi, h⟩ := Sample.good_ok h
  simp only [Bool.and_eq_true, decide_eq_true_eq, Option.map_eq_some_iff] at h
  obtain ⟨⟨⟨⟨h1, r0, h2, v0⟩, r1, h3, v1⟩, h4⟩, h5⟩ := h
  obtain ⟨t, ht, _⟩ := Sample.good_ok h4
  obtain ⟨u, hu, _⟩ := Sample.good_ok h5
  have pre : ∀ j ∈ [0], ∀ r, i.eng.master[j]? = some r → ClearRecord r ∧ LegalRecord r := by
    intro j hj r hr
    rw [List.mem_singleton] at hj
    subst hj
    rw [h2] at hr
    cases hr
    simp [ClearRecord, LegalRecord, v0]
  have raw : RawText r1 [0, 1, 97] := by simp [RawText, v1]
  refine ⟨i, t, u, hi, ht, ?_, hu, ?_⟩
  · exact C91_json_false _ _ _ _ hi Sample.plain_number [0] [2] 1 h1 (fun j hj r hr => (pre j hj r hr).1) r1 h3 _ raw
      (.control (c := 0) (by decide) (by decide) (by decide) (by decide)) {} (fun g hg => absurd hg (by simp)) [] _ (by decide) _ ht
  · exact C91_xml_false _ _ _ _ hi Sample.plain_clear [0] [2] 1 h1 pre r1 h3 _ raw
      ⟨[], 0, [1, 97], rfl, clear_nil, by decide⟩ {} ⟨fun g hg => absurd hg (by simp), fun g hg => absurd hg (by simp)⟩ [] _ _ hu

end Fileid.Props
