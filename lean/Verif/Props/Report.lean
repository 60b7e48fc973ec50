import Verif.Lemmas.ReportExcelXml
import Verif.Lemmas.ReportVba

/-!
# C89: the reports about compound files are documents that show what was found
-/

namespace Fileid.Props

open Common Spec Spec.Report Oless Report

/-- What the JSON report shows for a result; of a WordPerfect document there is no report (printing it is undefined). -/
def ResultShown (real : Propset.Real → Bytes) : Result → JVal → Prop
  | .ole e x, v => ∃ ms, v = .obj (identity e ++ ms) ∧ Carried real x.paths x.properties ms
  | .excel i x, v => ∃ ms ws, v = .obj (identity i.base ++ ms ++ ws) ∧ Carried real x.paths x.properties ms ∧
      WorkbookShown i ws
  | .vba p, v => v = .obj (identity p.base ++ projectMembers p)
  | .wp _, _ => False

/-- What is asked of a result: real numbers are written as JSON numbers, and the texts that are written as they are
need no escaping. -/
def ClearResult (env : Env) : Result → Prop
  | .ole _ x => ∀ g ∈ x.properties, ∀ p ∈ g.2, NumberReal env.props.real p
  | .excel i x => (∀ g ∈ x.properties, ∀ p ∈ g.2, NumberReal env.props.real p) ∧ NumberFmt env.fmt ∧
      (∀ r ∈ i.eng.master, ClearRecord r) ∧ Clear i.error
  | .vba p => ClearProject p
  | .wp _ => True

theorem result_json {abi : Abi} {env : Env} {r : Result} {t : Bytes} (hm : ClearInfo r.base) (hp : ClearResult env r)
    (h : r.toJson abi env = .ok t) : ∃ v, JClosed t v ∧ ResultShown env.props.real r v := by
  unfold Result.toJson at h
  cases r with
  | ole e x =>
    obtain ⟨b, hb, h⟩ := Excel.bind_ok_inv h
    injection h with h
    obtain ⟨m, ms, paths, groups, rfl, h1, h2, h3⟩ := base_reads hm hp hb
    rw [List.append_assoc] at h1
    refine ⟨_, ?_, _, rfl, paths, groups, rfl, h2, h3⟩
    exact JClosed.of (jclosed_obj h1) (by rw [← h]; rfl) rfl
  | excel i x =>
    obtain ⟨b, hb, h⟩ := Excel.bind_ok_inv h
    obtain ⟨m, ms, paths, groups, rfl, h1, h2, h3⟩ := base_reads hm hp.1 hb
    rw [List.append_assoc] at h1
    obtain ⟨qs, h4, h5⟩ := workbook_reads hp.2.1 hp.2.2.1 hp.2.2.2 h1 h
    exact ⟨_, h4, _, qs, rfl, ⟨paths, groups, rfl, h2, h3⟩, h5⟩
  | vba p =>
    injection h with h
    exact ⟨_, JClosed.of (project_reads hm hp) h.symm rfl, rfl⟩
  | wp e => cases h

theorem denotes_of_closed {t : Bytes} {v : JVal} (h : JClosed t v) : DenotesJson ⟨{}, t, t, t, t⟩ v.events :=
  fun stack => ⟨h .value (false :: stack) (Or.inl rfl), h .valueOrEnd (false :: stack) (Or.inr rfl)⟩

theorem report_json {abi : Abi} {env : Env} {S : Result → JVal → Prop} {rs : List Result} {name t : Bytes}
    (hn : 0 ∉ name) (hr : ∀ r ∈ rs, ∀ t, r.toJson abi env = .ok t → ∃ v, JClosed t v ∧ S r v)
    (h : report abi env .json name rs = .ok t) : ∃ vs, Pointwise S rs vs ∧
      jsonDocument t = some (JVal.obj [(b!"name", .text name), (b!"extensions", .arr vs)]).events := by
  unfold report at h
  obtain ⟨ts, hts, h⟩ := Excel.bind_ok_inv h
  injection h with h
  obtain ⟨vs, h1, h2⟩ := pointwise_trans (S := JClosed) (T := S) (mapRes_pointwise hts) (fun r hm t ht => hr r hm t ht)
  refine ⟨vs, h2, ?_⟩
  obtain ⟨items, hi1, hi2, hi3⟩ : ∃ items : List (Item × List JEvent),
      items.map (·.1) = ts.map (fun t => ⟨{}, t, t, t, t⟩) ∧ (∀ p ∈ items, DenotesJson p.1 p.2) ∧
      (items.map (·.2)).flatten = JVal.itemEvents vs := by
    clear h h2 hts
    induction h1 with
    | nil => exact ⟨[], rfl, fun p hp => absurd hp (by simp), rfl⟩
    | cons hc _ ih =>
      rename_i t v _ _ _
      obtain ⟨items, g1, g2, g3⟩ := ih
      refine ⟨(⟨{}, t, t, t, t⟩, v.events) :: items, by rw [List.map_cons, List.map_cons, g1], ?_, ?_⟩
      · intro p hp
        rcases List.mem_cons.1 hp with rfl | hp
        · exact denotes_of_closed hc
        · exact g2 p hp
      · rw [List.map_cons, List.flatten_cons, g3, JVal.itemEvents]
  have := C25_json_document_items name hn items hi2
  rw [hi1, h, hi3] at this
  rw [this]
  simp [JVal.events, JVal.memberEvents, JVal.text, chars]

/-- C89 for JSON: whenever the results for a compound file are printed, the output is a JSON document whose member
`extensions` lists, for each result, what was found, all paths and all properties, all records and sheets of a workbook,
all references and modules of a VBA project. Missing: texts that are written without escaping though they need it (C91,
C92), and real numbers that are not numbers (`C89_nan_false`). -/
theorem C89_json_partial (abi : Abi) (env : Env) (list : List OlessInfo) (hl : ∀ i ∈ list, i ∈ table) (depth : Nat)
    (file : File) (rs : List Result) (hg : Guess abi env list depth file = .ok rs)
    (hp : ∀ r ∈ rs, ClearResult env r) (name : Bytes) (hn : 0 ∉ name) (t : Bytes)
    (ht : report abi env .json name rs = .ok t) :
    ∃ vs, Pointwise (ResultShown env.props.real) rs vs ∧
      jsonDocument t = some (JVal.obj [(b!"name", .text name), (b!"extensions", .arr vs)]).events :=
  report_json hn (fun r hr t ht => result_json (guess_made hl hg r hr).1 (hp r hr) ht) ht

/-! ## XML -/

/-- What the XML report shows for a result. -/
def ResultShownX (real : Propset.Real → Bytes) : Result → XVal → Prop
  | .ole e x, v => ∃ vs, v = .elem b!"item" (identityX e ++ vs) ∧ CarriedX real x.paths x.properties vs
  | .excel i x, v => ∃ vs ws, v = .elem b!"item" (identityX i.base ++ vs ++ ws) ∧ CarriedX real x.paths x.properties vs ∧
      WorkbookShownX i ws
  | .vba p, v => ∃ vs, v = .elem b!"item" (identityX p.base ++ vs) ∧ ProjectShownX p vs
  | .wp _, _ => False

/-- The names of the streams and the properties have no character that may not stand in XML. -/
def LegalExtra (real : Propset.Real → Bytes) (x : Extra) : Prop :=
  (∀ p ∈ x.paths, ∀ u ∈ p.takeWhile (· ≠ 0), XmlUnit u) ∧
    ∀ g ∈ x.properties, (∀ u ∈ g.1, XmlUnit u) ∧ ∀ p ∈ g.2, ValueLegal real p

/-- What is asked of a result: texts that are escaped may stand in XML, and texts that are written as they are need no
escaping. -/
def LegalResult (env : Env) : Result → Prop
  | .ole _ x => LegalExtra env.props.real x
  | .excel i x => LegalExtra env.props.real x ∧ ClearFmt env.fmt ∧
      (∀ r ∈ i.eng.master, ClearRecord r ∧ LegalRecord r) ∧ (∀ s ∈ i.eng.sheets, LegalText s.Name) ∧ Clear i.error
  | .vba p => ClearProject p ∧ LegalProject p
  | .wp _ => True

theorem result_xml {abi : Abi} {env : Env} {r : Result} {t : Bytes} (hm : ClearInfo r.base) (hp : LegalResult env r)
    (h : r.toXml abi env = .ok t) : ∃ v, XReads t [v] ∧ ResultShownX env.props.real r v := by
  unfold Result.toXml at h
  cases r with
  | ole e x =>
    obtain ⟨b, hb, h⟩ := Excel.bind_ok_inv h
    injection h with h
    obtain ⟨vs, h3, h4⟩ := carriedX_reads hm hp.1 hp.2 hb
    refine ⟨_, ?_, vs, rfl, h4⟩
    exact XReads.of (xreads_elem (n := b!"item") (by decide) h3) (by rw [← h]; simp [elemText]) rfl
  | excel i x =>
    obtain ⟨b, hb, h⟩ := Excel.bind_ok_inv h
    obtain ⟨vs, h3, h4⟩ := carriedX_reads hm hp.1.1 hp.1.2 hb
    obtain ⟨ws, h5, h6⟩ := workbookX_reads hp.2.1 hp.2.2.1 hp.2.2.2.1 hp.2.2.2.2 h3 h
    exact ⟨_, h5, vs, ws, rfl, h4, h6⟩
  | vba p =>
    injection h with h
    obtain ⟨vs, h3, h4⟩ := projectX_reads hm hp.1 hp.2
    exact ⟨_, XReads.of h3 h.symm rfl, vs, rfl, h4⟩
  | wp e => cases h

theorem report_xml {abi : Abi} {env : Env} {S : Result → XVal → Prop} {rs : List Result} {name t : Bytes}
    (hn : xmlLegal name = true) (hr : ∀ r ∈ rs, ∀ t, r.toXml abi env = .ok t → ∃ v, XReads t [v] ∧ S r v)
    (h : report abi env .xml name rs = .ok t) : ∃ n vs, Pointwise S rs vs ∧
      ((∀ c ∈ name, c ≠ 60 ∧ c ≠ 62) → n = codes name) ∧
      xmlDocument t = some (XVal.elem b!"file" [.elem b!"name" [.chars n], .elem b!"extensions" vs]).events := by
  unfold report at h
  obtain ⟨ts, hts, h⟩ := Excel.bind_ok_inv h
  injection h with h
  obtain ⟨vs, h1, h2⟩ := pointwise_trans (S := fun t v => XReads t [v]) (T := S) (mapRes_pointwise hts)
    (fun r hm t ht => hr r hm t ht)
  refine ⟨_, vs, h2, swapped_eq, ?_⟩
  have hd := xmlDocument_elem (n := b!"file") (by decide) ((xreads_elem (n := b!"name") (by decide) (xreads_escape hn)).append
    (xreads_elem (n := b!"extensions") (by decide) (xreads_flatten h1)))
  have e : elemText b!"file" (elemText b!"name" (XmlEscape name) ++ elemText b!"extensions" ts.flatten) = t := by
    rw [← h, Output]
    simp [elemText, List.map_map, Function.comp_def]
  rw [e] at hd
  exact hd

/-- C89 for XML. Missing: characters that may not stand in XML, and texts written without escaping. -/
theorem C89_xml_partial (abi : Abi) (env : Env) (list : List OlessInfo) (hl : ∀ i ∈ list, i ∈ table) (depth : Nat)
    (file : File) (rs : List Result) (hg : Guess abi env list depth file = .ok rs)
    (hp : ∀ r ∈ rs, LegalResult env r) (name : Bytes) (hn : xmlLegal name = true) (t : Bytes)
    (ht : report abi env .xml name rs = .ok t) :
    ∃ n vs, Pointwise (ResultShownX env.props.real) rs vs ∧ ((∀ c ∈ name, c ≠ 60 ∧ c ≠ 62) → n = codes name) ∧
      xmlDocument t = some (XVal.elem b!"file" [.elem b!"name" [.chars n], .elem b!"extensions" vs]).events :=
  report_xml hn (fun r hr t ht => result_xml (guess_made hl hg r hr).1 (hp r hr) ht) ht

/-- The report is no XML document when a path has a character that may not stand in XML, as every file with the usual
document properties has: the name of their stream begins with the character 5. -/
theorem C89_xml_false (abi : Abi) (env : Env) (list : List OlessInfo) (hl : ∀ i ∈ list, i ∈ table) (depth : Nat)
    (file : File) (e : ExtInfo) (x : Extra) (rs : List Result) (hg : Guess abi env list depth file = .ok (.ole e x :: rs))
    (p : Pole.WStr) (hp : p ∈ x.paths) (u : Nat) (hu : u ∈ p.takeWhile (· ≠ 0)) (hx : ¬ XmlUnit u)
    (name t : Bytes) (ht : report abi env .xml name (.ole e x :: rs) = .ok t) : xmlDocument t = none := by
  have hm := guess_made hl hg (.ole e x) (by simp)
  unfold report at ht
  obtain ⟨ts, hts, ht⟩ := Excel.bind_ok_inv ht
  injection ht with ht
  have hpw := mapRes_pointwise hts
  cases hpw with
  | cons h0 _ =>
  rename_i t0 ts _
  change Result.toXml abi env (.ole e x) = .ok t0 at h0
  unfold Result.toXml at h0
  obtain ⟨b, hb, h0⟩ := Excel.bind_ok_inv h0
  injection h0 with h0
  unfold baseXml at hb
  obtain ⟨pt, hpt, hb1⟩ := Excel.bind_ok_inv hb
  obtain ⟨gt, hgt, hb2⟩ := Excel.bind_ok_inv hb1
  clear hb
  injection hb2 with hb
  have hne : x.paths.length > 0 := List.length_pos_of_mem hp
  rw [if_pos hne] at hb
  -- the paths
  have hbad : ∀ stack, run xmlStep (.text, b!"Paths" :: stack)
      (vectorJoin (pt.map fun p => b!"<Path>" ++ XmlEscape p ++ b!"</Path>") b!",") = none := by
    intro stack
    rw [vectorJoin_plain]
    have hpw := mapRes_pointwise hpt
    generalize x.paths = ps at hpw hp
    clear hpt hb hb1 hne ht hts hm hg
    induction hpw with
    | nil => cases hp
    | cons h1 hrest ih =>
      rename_i q s qs ss
      have hopen : run xmlStep (.text, b!"Paths" :: stack) b!"<Path>" =
          some ((.text, b!"Path" :: b!"Paths" :: stack), [.opened b!"Path"]) := rfl
      have this_bad : xmlLegal s = false → run xmlStep (.text, b!"Paths" :: stack)
          (itemsText ((s :: ss).map fun p => b!"<Path>" ++ XmlEscape p ++ b!"</Path>")) = none := by
        intro hs
        have : run xmlStep (.text, b!"Paths" :: stack) (b!"<Path>" ++ XmlEscape s) = none :=
          run_after_bad hopen (run_escape_illegal _ _ hs)
        cases ss with
        | nil =>
          rw [List.map_cons, List.map_nil, itemsText]
          exact run_bad_append this
        | cons s' ss =>
          rw [List.map_cons, List.map_cons, itemsText, List.append_assoc, List.append_assoc]
          exact run_bad_append this
      rcases List.mem_cons.1 hp with rfl | hp
      · exact this_bad (convert_illegal h1 hu hx)
      · cases hlegal : xmlLegal s with
        | false => exact this_bad hlegal
        | true =>
          have good := xreads_elem (n := b!"Path") (by decide) (xreads_escape hlegal)
          have e : elemText b!"Path" (XmlEscape s) = b!"<Path>" ++ XmlEscape s ++ b!"</Path>" := by simp [elemText]
          rw [e] at good
          cases ss with
          | nil => cases hrest; cases hp
          | cons s' ss =>
            rw [List.map_cons, List.map_cons, itemsText, List.append_assoc]
            have hc : XReads b!"," [.chars [44]] := xreads_chars (s := b!",") (by decide)
            refine run_after_bad (good b!"Paths" stack) (run_after_bad (hc b!"Paths" stack) ?_)
            exact ih hp
  have hitem : ∀ n stack, run xmlStep (.text, n :: stack) t0 = none := by
    intro n stack
    have h1 : run xmlStep (.text, n :: stack) b!"<item>" = some ((.text, b!"item" :: n :: stack), [.opened b!"item"]) := rfl
    have h2 := baseXml_reads hm.1 b!"item" (n :: stack)
    have h3 : run xmlStep (.text, b!"item" :: n :: stack) b!"<Paths>" =
        some ((.text, b!"Paths" :: b!"item" :: n :: stack), [.opened b!"Paths"]) := rfl
    rw [← h0, ← hb]
    simp only [List.append_assoc]
    exact run_after_bad h1 (run_after_bad h2 (run_after_bad h3 (run_bad_append (hbad _))))
  have h1 : run xmlStep (.text, []) b!"<file>" = some ((.text, [b!"file"]), [.opened b!"file"]) := rfl
  unfold xmlDocument
  have : run xmlStep (.text, []) t = none := by
    rw [← ht, Output]
    have h2 : run xmlStep (.text, [b!"file"]) b!"<name>" = some ((.text, [b!"name", b!"file"]), [.opened b!"name"]) := rfl
    have h3 : run xmlStep (.text, [b!"file"]) b!"<extensions>" =
        some ((.text, [b!"extensions", b!"file"]), [.opened b!"extensions"]) := rfl
    rw [List.map_map, List.map_cons, List.flatten_cons]
    cases hl : xmlLegal name with
    | false =>
      simp only [List.append_assoc]
      exact run_after_bad h1 (run_after_bad h2 (run_bad_append (run_escape_illegal _ _ hl)))
    | true =>
      have hname := xreads_elem (n := b!"name") (by decide) (xreads_escape hl) b!"file" []
      have e : elemText b!"name" (XmlEscape name) = b!"<name>" ++ (XmlEscape name ++ b!"</name>") := by simp [elemText]
      rw [e] at hname
      have := run_after_bad h1 (run_after_bad hname (run_after_bad h3 (run_bad_append (b := (ts.map
        ((fun i : Item => i.xml) ∘ fun t => ⟨{}, t, t, t, t⟩)).flatten ++ (b!"</" ++ b!"extensions" ++ b!">" ++ b!"</file>"))
        (hitem b!"extensions" [b!"file"]))))
      simpa using this
  rw [this]

end Fileid.Props
