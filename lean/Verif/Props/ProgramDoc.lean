import Verif.Props.Program
import Verif.Props.AsfShown

/-!
# C93: the documents the program prints
-/

namespace Fileid.Props

open Common Spec Spec.Report Magic Report

/-! ## What the documents show -/

/-- What the JSON document shows for a result: the members of the kind of result it is. For an ASF file it shows what
the text about the file, read alone, shows (C86). -/
inductive Shown (real : Propset.Real → Bytes) : Found → List JEvent → Prop
  | generic (e : ExtInfo) : Shown real (.item (Item.generic e)) (genericJson e)
  | macho (i : Exec.MachO.MachOInfo) : Shown real (.item i.item) (machoJson i)
  | archive (cs : List Zip.ZipFileInfo) : Shown real (.item (Zip.zipItem cs)) (archiveJson cs)
  | unknown (sample : Bytes) : Shown real (.item (unknownItem sample)) (unknownJsonEvents sample)
  | media (i : Item) (ms : List (Bytes × JVal)) (h : jsonDocument i.json = some (JVal.obj ms).events) :
      Shown real (.item i) (JVal.obj ms).events
  | ole (r : Oless.Result) (v : JVal) (h : ResultShown real r v) : Shown real (.ole r) v.events

/-- What the XML document shows for a result. -/
inductive ShownX (real : Propset.Real → Bytes) : Found → List XEvent → Prop
  | generic (e : ExtInfo) : ShownX real (.item (Item.generic e)) (genericXml e)
  | macho (i : Exec.MachO.MachOInfo) : ShownX real (.item i.item) (machoXml i)
  | archive (cs : List Zip.ZipFileInfo) : ShownX real (.item (Zip.zipItem cs)) (archiveXml cs)
  | unknown (sample : Bytes) : ShownX real (.item (unknownItem sample)) (unknownXmlEvents sample)
  | media (i : Item) (ev : List XEvent) (h : xmlDocument i.xml = some ev) : ShownX real (.item i) ev
  | ole (r : Oless.Result) (v : XVal) (h : ResultShownX real r v) : ShownX real (.ole r) v.events

/-- The signatures of compound files and of ASF files. -/
def oleSignature : Bytes := [0xD0, 0xCF, 0x11, 0xE0]
def asfSignature : Bytes := Spec.Asf.headerId

/-- What is asked of the texts in the file that are written without escaping: names and comments in archives, texts in
compound files (C89), texts in ASF files (C86). -/
structure Writable (w : World) (content : Bytes) : Prop where
  zip : At content 0 b!"PK" → ∀ a, w.zip (some content) = .ok a → ∀ e ∈ a, plain e.FullName = true ∧ plain e.Comment = true
  ole : At content 0 oleSignature → ∀ rs, Oless.Guess w.abi w.ole Oless.table w.depth (some content) = .ok rs →
    ∀ r ∈ rs, ClearResult w.ole r
  asf : At content 0 asfSignature → ∀ l, Asf.Detailer w.abi w.room w.fuel (some content) (content.take 65536) = .ok l →
    ∀ i ∈ l, ∃ ms, jsonDocument i.json = some (JVal.obj ms).events

/-- The same for XML. -/
structure WritableX (w : World) (content : Bytes) : Prop where
  zip : At content 0 b!"PK" → ∀ a, w.zip (some content) = .ok a → ∀ e ∈ a, plain e.FullName = true ∧ plain e.Comment = true
  ole : At content 0 oleSignature → ∀ rs, Oless.Guess w.abi w.ole Oless.table w.depth (some content) = .ok rs →
    ∀ r ∈ rs, LegalResult w.ole r
  asf : At content 0 asfSignature → ∀ l, Asf.Detailer w.abi w.room w.fuel (some content) (content.take 65536) = .ok l →
    ∀ i ∈ l, ∃ ev, xmlDocument i.xml = some ev

/-! ## The rows with extractors -/

theorem zip_row : ∀ mi ∈ table, mi.extraFunc = some .zip_Detailer → mi.offset = 0 ∧ mi.magic = b!"PK" := by decide +kernel
theorem ole_row : ∀ mi ∈ table, mi.extraFunc = some .oless_Detailer → mi.offset = 0 ∧ mi.magic = oleSignature := by
  decide +kernel
theorem asf_row : ∀ mi ∈ table, mi.extraFunc = some .media_asf_Detailer → mi.offset = 0 ∧ mi.magic = asfSignature := by
  decide +kernel

/-- What the program finds in a file. -/
inductive Source (w : World) (content : Bytes) : Found → Prop
  | row (mi : MagicInfo) (h : mi ∈ table) (hx : mi.extraFunc = none) : Source w content
      (.item (Item.generic { Extension := mi.Extension, Name := mi.Name, SubType := mi.Version }))
  | kind (e : ExtInfo) (h1 : plain e.Extension = true) (h2 : plain e.Name = true) (h3 : plain e.VersionName = true)
      (h4 : e.SubType = []) : Source w content (.item (Item.generic e))
  | macho (i : Exec.MachO.MachOInfo) (h1 : machoPlain i) (h2 : i.base.Name = []) (h3 : i.base.SubType = []) :
      Source w content (.item i.item)
  | archive (a : Zip.Archive) (hat : At content 0 b!"PK") (ha : w.zip (some content) = .ok a) :
      Source w content (.item (Zip.zipItem (a.map Zip.childInfo)))
  | asf (l : List Item) (i : Item) (hat : At content 0 asfSignature)
      (h : Asf.Detailer w.abi w.room w.fuel (some content) (content.take 65536) = .ok l) (hi : i ∈ l) :
      Source w content (.item i)
  | ole (rs : List Oless.Result) (r : Oless.Result) (hat : At content 0 oleSignature)
      (h : Oless.Guess w.abi w.ole Oless.table w.depth (some content) = .ok rs) (hr : r ∈ rs) : Source w content (.ole r)
  | wp (e : ExtInfo) : Source w content (.ole (.wp e))

theorem identified_source {w : World} {content : Bytes} (hlen : content.length < 2 ^ 32) {found : List Found}
    (h : identify w (some content) = .ok found) : ∀ x ∈ found, Source w content x := by
  rw [C93_identified w content hlen] at h
  intro x hx
  obtain ⟨mi, hm, a, h1, h2⟩ := (gather_mem h).1 x hx
  obtain ⟨hm, hat⟩ := List.mem_filter.1 hm
  have hat := of_decide_eq_true hat
  unfold gives at h1
  cases hd : mi.extraFunc with
  | none =>
    rw [hd] at h1
    injection h1 with h1
    subst h1
    rw [List.mem_singleton.1 h2]
    exact .row mi hm hd
  | some d =>
    rw [hd] at h1
    have hb : (content.take 65536).length < 2 ^ 63 := by rw [List.length_take]; omega
    have simple : SimpleExtractor d → (∃ l, dispatch w.abi (fun _ _ _ => .ok []) d (some content) (content.take 65536) =
        .ok l ∧ a = l.map .item) → Source w content x := by
      rintro hs ⟨l, h3, rfl⟩
      obtain ⟨it, hi, rfl⟩ := List.mem_map.1 h2
      rcases simple_items w.abi _ d hs _ _ hb l h3 it hi with ⟨e, rfl, g1, g2, g3, g4⟩ | ⟨i, rfl, g1, g2, g3⟩
      · exact .kind e g1 (by rw [g3]; rfl) g2 g4
      · exact .macho i g1 g2 g3
    have unmap : ∀ {β : Type} {r : Res (List β)} {f : β → Found}, (r >>= fun l => .ok (l.map f)) = .ok a →
        ∃ l, r = .ok l ∧ a = l.map f := by
      intro β r f h
      obtain ⟨l, h3, h4⟩ := Excel.bind_ok_inv h
      injection h4 with h4
      exact ⟨l, h3, h4.symm⟩
    cases d with
    | zip_Detailer =>
      obtain ⟨l, h3, rfl⟩ := unmap h1
      obtain ⟨it, hi, rfl⟩ := List.mem_map.1 h2
      obtain ⟨e1, e2⟩ := zip_row mi hm hd
      rw [e1, e2] at hat
      have h3' := h3
      unfold zipDetailer at h3'
      obtain ⟨ar, ha, _⟩ := Excel.bind_ok_inv h3'
      rcases zip_items ha h3 with hk | rfl
      · obtain ⟨ext, name, rfl, g1, g2⟩ := hk it hi
        exact .kind _ g1 g2 rfl rfl
      · rw [List.mem_singleton.1 hi]
        exact .archive ar hat ha
    | oless_Detailer =>
      obtain ⟨l, h3, rfl⟩ := unmap h1
      obtain ⟨r, hr, rfl⟩ := List.mem_map.1 h2
      obtain ⟨e1, e2⟩ := ole_row mi hm hd
      rw [e1, e2] at hat
      exact .ole l r hat h3 hr
    | document_wp_Detailer =>
      injection h1 with h1
      subst h1
      rw [List.mem_singleton.1 h2]
      exact .wp _
    | media_asf_Detailer =>
      obtain ⟨l, h3, rfl⟩ := unmap h1
      obtain ⟨it, hi, rfl⟩ := List.mem_map.1 h2
      obtain ⟨e1, e2⟩ := asf_row mi hm hd
      rw [e1, e2] at hat
      exact .asf l it hat h3 hi
    | Exec_Detailer => exact simple (by simp [SimpleExtractor]) (unmap h1)
    | Exec_MachO_Detailer => exact simple (by simp [SimpleExtractor]) (unmap h1)
    | media_jpeg_Detailer => exact simple (by simp [SimpleExtractor]) (unmap h1)
    | document_dwg_DwgHelper => exact simple (by simp [SimpleExtractor]) (unmap h1)
    | media_mp4_Detailer => exact simple (by simp [SimpleExtractor]) (unmap h1)
    | media_riff_RIFFHelper => exact simple (by simp [SimpleExtractor]) (unmap h1)

/-! ## JSON -/

/-- The texts the program prints are placed by `Output` as they are. -/
def printed (t : Bytes) : Item := ⟨{}, t, t, t, t⟩

theorem denotes_printed {i : Item} {ev : List JEvent} (h : DenotesJson i ev) : DenotesJson (printed i.json) ev := h

theorem source_json {w : World} {content : Bytes} (hw : Writable w content) {x : Found} (hs : Source w content x) {t : Bytes}
    (h : x.print w .json = .ok t) : ∃ ev, DenotesJson (printed t) ev ∧ Shown w.ole.props.real x ev := by
  cases hs with
  | row mi hm hx =>
    injection h with h
    subst h
    obtain ⟨h1, h2, h3⟩ := table_json_safe mi hm hx
    exact ⟨_, denotes_printed (genericJson_denotes _ (by simp only [jsonSafe, h1, h2]; rfl) h3), .generic _⟩
  | kind e h1 h2 h3 h4 =>
    injection h with h
    subst h
    simp only [plain, Bool.and_eq_true] at h1 h2 h3
    exact ⟨_, denotes_printed (genericJson_denotes _ (by simp only [jsonSafe, h1.1, h2.1, h3.1]; rfl) (by simp [h4])), .generic _⟩
  | macho i h1 h2 h3 =>
    injection h with h
    subst h
    exact ⟨_, denotes_printed (machoJson_denotes i h1), .macho i⟩
  | archive a hat ha =>
    injection h with h
    subst h
    refine ⟨_, denotes_printed (zipJson_denotes _ ?_), .archive _⟩
    intro c hc
    obtain ⟨e, he, rfl⟩ := List.mem_map.1 hc
    obtain ⟨g1, g2⟩ := hw.zip hat a ha e he
    refine ⟨g1, g2, ?_⟩
    unfold Zip.childInfo
    dsimp only
    split <;> decide
  | asf l i hat hl hi =>
    injection h with h
    subst h
    obtain ⟨ms, hms⟩ := hw.asf hat l hl i hi
    exact ⟨_, denotes_of_closed (closed_of_document hms), .media i ms hms⟩
  | ole rs r hat hg hr =>
    obtain ⟨v, h1, h2⟩ := result_json (guess_made (fun _ h => h) hg r hr).1 (hw.ole hat rs hg r hr) h
    exact ⟨_, denotes_of_closed h1, .ole r v h2⟩
  | wp e => cases h

theorem unknown_json (w : World) (file : File) :
    ∃ ev, DenotesJson (printed (UnknownExtension file).json) ev ∧ Shown w.ole.props.real (.item (UnknownExtension file)) ev := by
  unfold UnknownExtension
  dsimp only
  split
  · exact ⟨_, denotes_printed (unknownJson_denotes _), .unknown _⟩
  · exact ⟨_, denotes_printed (genericJson_denotes _ (by decide) (by decide)), .generic _⟩

/-- What is reported: what was found, or that the file is unknown. -/
def reported (file : File) (found : List Found) : List Found :=
  if found = [] then [.item (UnknownExtension file)] else found

theorem reported_eq (file : File) (found : List Found) :
    (if found.length = 0 then found ++ [.item (UnknownExtension file)] else found) = reported file found := by
  unfold reported
  cases found <;> simp

theorem identify_none (w : World) : identify w none = .ok [] := rfl

theorem print_all {w : World} {xs : List Found} {texts : List Bytes} {S : Found → List JEvent → Prop}
    (h : Oless.mapRes (fun x => x.print w .json) xs = .ok texts)
    (hs : ∀ x ∈ xs, ∀ t, x.print w .json = .ok t → ∃ ev, DenotesJson (printed t) ev ∧ S x ev) :
    ∃ (items : List (Item × List JEvent)) (evs : List (List JEvent)), Pointwise S xs evs ∧ items.map (·.2) = evs ∧
      items.map (·.1) = texts.map printed ∧ ∀ p ∈ items, DenotesJson p.1 p.2 := by
  have hp := mapRes_pointwise h
  clear h
  induction hp with
  | nil => exact ⟨[], [], .nil, rfl, rfl, by simp⟩
  | cons h0 _ ih =>
    rename_i x t _ _ _
    obtain ⟨items, evs, i1, i2, i3, i4⟩ := ih (fun x hx => hs x (by simp [hx]))
    obtain ⟨ev, g1, g2⟩ := hs x (by simp) t h0
    refine ⟨(printed t, ev) :: items, ev :: evs, .cons g2 i1, by simp [i2], by simp [i3], ?_⟩
    intro p hp
    rcases List.mem_cons.1 hp with rfl | hp
    · exact g1
    · exact i4 p hp

/-- C93, JSON: whatever the program prints when it is asked for JSON is a JSON document with the name of the file and,
in order, one object for each result; each shows what was found. Missing: files with texts that are written without
escaping though they need it (`Writable`), and files of 4 GiB or more. -/
theorem C93_json_partial (w : World) (fs : Bytes → File) (path : Bytes) (rest : List Bytes) (hp : 0 ∉ path)
    (hf : asked rest = .json) (hc : ∀ content, fs path = some content → content.length < 2 ^ 32 ∧ Writable w content)
    (t : Bytes) (h : program w fs (path :: rest) = .ok t) :
    ∃ found evs, identify w (fs path) = .ok found ∧ Pointwise (Shown w.ole.props.real) (reported (fs path) found) evs ∧
      jsonDocument t = some ([.startObj, .key (codes b!"name"), .str (codes path), .key (codes b!"extensions"), .startArr] ++
        evs.flatten ++ [.endArr, .endObj]) := by
  obtain ⟨found, texts, h1, h2, h3⟩ := program_ok h
  rw [reported_eq, hf] at h2
  have hs : ∀ x ∈ reported (fs path) found, ∀ t, x.print w .json = .ok t →
      ∃ ev, DenotesJson (printed t) ev ∧ Shown w.ole.props.real x ev := by
    intro x hx t ht
    unfold reported at hx
    split at hx
    · rw [List.mem_singleton.1 hx] at ht ⊢
      injection ht with ht
      subst ht
      exact unknown_json w _
    · cases hfs : fs path with
      | none =>
        rw [hfs, identify_none] at h1
        injection h1 with h1
        subst h1
        cases hx
      | some content =>
        obtain ⟨g1, g2⟩ := hc content hfs
        rw [hfs] at h1
        exact source_json g2 (identified_source g1 h1 x hx) ht
  obtain ⟨items, evs, i1, i2, i3, i4⟩ := print_all h2 hs
  refine ⟨found, evs, h1, i1, ?_⟩
  have := C25_json_document_items path hp items i4
  rw [h3, hf]
  show jsonDocument (Output .json path b!"extensions" (texts.map printed)) = _
  rw [← i3, this, i2]
  rfl

/-! ## XML -/

theorem denotes_printedX {i : Item} {ev : List XEvent} (h : DenotesXml i ev) : DenotesXml (printed i.xml) ev := h

theorem source_xml {w : World} {content : Bytes} (hw : WritableX w content) {x : Found} (hs : Source w content x) {t : Bytes}
    (h : x.print w .xml = .ok t) : ∃ ev, DenotesXml (printed t) ev ∧ ShownX w.ole.props.real x ev := by
  cases hs with
  | row mi hm hx =>
    injection h with h
    subst h
    obtain ⟨h1, h2, h3⟩ := table_xml_safe mi hm hx
    exact ⟨_, denotes_printedX (genericXml_denotes _ h1 h2 (by rfl) h3), .generic _⟩
  | kind e h1 h2 h3 h4 =>
    injection h with h
    subst h
    exact ⟨_, denotes_printedX (genericXml_denotes _ (plain_xml h1) (plain_xml h2) (plain_xml h3) (by rw [h4]; rfl)), .generic _⟩
  | macho i h1 h2 h3 =>
    injection h with h
    subst h
    exact ⟨_, denotes_printedX (machoXml_denotes i h1 h2 h3), .macho i⟩
  | archive a hat ha =>
    injection h with h
    subst h
    refine ⟨_, denotes_printedX (zipXml_denotes _ ?_), .archive _⟩
    intro c hc
    obtain ⟨e, he, rfl⟩ := List.mem_map.1 hc
    obtain ⟨g1, g2⟩ := hw.zip hat a ha e he
    refine ⟨g1, g2, ?_⟩
    unfold Zip.childInfo
    dsimp only
    split <;> decide
  | asf l i hat hl hi =>
    injection h with h
    subst h
    obtain ⟨ev, hev⟩ := hw.asf hat l hl i hi
    exact ⟨_, fun n stack => runX_document hev n stack, .media i ev hev⟩
  | ole rs r hat hg hr =>
    obtain ⟨v, h1, h2⟩ := result_xml (guess_made (fun _ h => h) hg r hr).1 (hw.ole hat rs hg r hr) h
    refine ⟨_, fun n stack => ?_, .ole r v h2⟩
    have := h1 n stack
    simpa [XVal.listEvents, printed] using this
  | wp e => cases h

theorem unknown_xml (w : World) (file : File) :
    ∃ ev, DenotesXml (printed (UnknownExtension file).xml) ev ∧ ShownX w.ole.props.real (.item (UnknownExtension file)) ev := by
  unfold UnknownExtension
  dsimp only
  split
  · exact ⟨_, denotes_printedX (unknownXml_denotes _), .unknown _⟩
  · exact ⟨_, denotes_printedX (genericXml_denotes _ (by decide) (by decide) (by decide) (by decide)), .generic _⟩

theorem print_allX {w : World} {xs : List Found} {texts : List Bytes} {S : Found → List XEvent → Prop}
    (h : Oless.mapRes (fun x => x.print w .xml) xs = .ok texts)
    (hs : ∀ x ∈ xs, ∀ t, x.print w .xml = .ok t → ∃ ev, DenotesXml (printed t) ev ∧ S x ev) :
    ∃ (items : List (Item × List XEvent)) (evs : List (List XEvent)), Pointwise S xs evs ∧ items.map (·.2) = evs ∧
      items.map (·.1) = texts.map printed ∧ ∀ p ∈ items, DenotesXml p.1 p.2 := by
  have hp := mapRes_pointwise h
  clear h
  induction hp with
  | nil => exact ⟨[], [], .nil, rfl, rfl, by simp⟩
  | cons h0 _ ih =>
    rename_i x t _ _ _
    obtain ⟨items, evs, i1, i2, i3, i4⟩ := ih (fun x hx => hs x (by simp [hx]))
    obtain ⟨ev, g1, g2⟩ := hs x (by simp) t h0
    refine ⟨(printed t, ev) :: items, ev :: evs, .cons g2 i1, by simp [i2], by simp [i3], ?_⟩
    intro p hp
    rcases List.mem_cons.1 hp with rfl | hp
    · exact g1
    · exact i4 p hp

/-- C93, XML: whatever the program prints when it is asked for XML is an XML document with the name of the file and, in
order, one element for each result. Missing: as for JSON, and names with control characters; `<` and `>` in the name are
exchanged (C12). -/
theorem C93_xml_partial (w : World) (fs : Bytes → File) (path : Bytes) (rest : List Bytes) (hp : xmlLegal path = true)
    (hf : asked rest = .xml) (hc : ∀ content, fs path = some content → content.length < 2 ^ 32 ∧ WritableX w content)
    (t : Bytes) (h : program w fs (path :: rest) = .ok t) :
    ∃ found evs, identify w (fs path) = .ok found ∧ Pointwise (ShownX w.ole.props.real) (reported (fs path) found) evs ∧
      xmlDocument t = some (elem b!"file" (elem b!"name" (seen path) ++ elem b!"extensions" evs.flatten)) := by
  obtain ⟨found, texts, h1, h2, h3⟩ := program_ok h
  rw [reported_eq, hf] at h2
  have hs : ∀ x ∈ reported (fs path) found, ∀ t, x.print w .xml = .ok t →
      ∃ ev, DenotesXml (printed t) ev ∧ ShownX w.ole.props.real x ev := by
    intro x hx t ht
    unfold reported at hx
    split at hx
    · rw [List.mem_singleton.1 hx] at ht ⊢
      injection ht with ht
      subst ht
      exact unknown_xml w _
    · cases hfs : fs path with
      | none =>
        rw [hfs, identify_none] at h1
        injection h1 with h1
        subst h1
        cases hx
      | some content =>
        obtain ⟨g1, g2⟩ := hc content hfs
        rw [hfs] at h1
        exact source_xml g2 (identified_source g1 h1 x hx) ht
  obtain ⟨items, evs, i1, i2, i3, i4⟩ := print_allX h2 hs
  refine ⟨found, evs, h1, i1, ?_⟩
  have := C26_xml_document_items_partial path hp items i4
  rw [h3, hf]
  show xmlDocument (Output .xml path b!"extensions" (texts.map printed)) = _
  rw [← i3, this, i2]

/-! ## Compound files -/

theorem giveExtra_length (x : Oless.Extra) (rs : List Oless.Result) : (Oless.giveExtra x rs).length = rs.length := by
  induction rs with
  | nil => rfl
  | cons r rs ih =>
    unfold Oless.giveExtra
    split <;> simp_all

theorem guess_ne {abi : Abi} {env : Oless.Env} {list : List Oless.OlessInfo} {depth : Nat} {file : File}
    {rs : List Oless.Result} (h : Oless.Guess abi env list depth file = .ok rs) : rs ≠ [] := by
  have hf : ∀ st, Oless.finish st ≠ [] := by
    intro st h
    unfold Oless.finish at h
    dsimp only at h
    split at h
    · cases h
    · rename_i hn
      exact hn (by rw [← giveExtra_length, h]; rfl)
  unfold Oless.Guess at h
  obtain ⟨o, _, h⟩ := Excel.bind_ok_inv h
  split at h
  · obtain ⟨st, _, h⟩ := Excel.bind_ok_inv h
    injection h with h
    rw [← h]
    exact hf _
  · injection h with h
    rw [← h]
    exact hf _

theorem mapRes_map {α β γ : Type} (f : α → β) (g : β → Res γ) (l : List α) :
    Oless.mapRes g (l.map f) = Oless.mapRes (fun a => g (f a)) l := by
  induction l with
  | nil => rfl
  | cons a l ih => rw [List.map_cons, Oless.mapRes, Oless.mapRes, ih]

theorem identify_one {w : World} {content : Bytes} (hlen : content.length < 2 ^ 32) (d : Detailer) (row : MagicInfo)
    (hone : (table.filter fun mi => decide (mi.extraFunc = some d)) = [row]) (hat : At content row.offset row.magic)
    (honly : ∀ mi ∈ table, At content mi.offset mi.magic → mi.extraFunc = some d) :
    identify w (some content) = extract w d (some content) (content.take 65536) := by
  have hrow : row.extraFunc = some d := by
    have : row ∈ table.filter fun mi => decide (mi.extraFunc = some d) := by rw [hone]; simp
    exact of_decide_eq_true (List.mem_filter.1 this).2
  rw [C93_identified w content hlen, only_rows honly, hone, List.filter_cons_of_pos (by simpa using hat), List.filter_nil]
  unfold gather gather gives
  rw [hrow]
  dsimp only
  cases extract w d (some content) (content.take 65536) <;> simp

/-- C93 for compound files: if no other signature stands in the file, the program prints the report (C89) about what is
found in the compound file, whatever the format, and fails in no other way than that report. -/
theorem C93_compound (w : World) (fs : Bytes → File) (path content : Bytes) (rest : List Bytes)
    (hfs : fs path = some content) (hlen : content.length < 2 ^ 32) (hat : At content 0 oleSignature)
    (honly : ∀ mi ∈ table, At content mi.offset mi.magic → mi.magic = oleSignature) :
    program w fs (path :: rest) = (Oless.Guess w.abi w.ole Oless.table w.depth (some content) >>= fun rs =>
      Oless.report w.abi w.ole (asked rest) path rs) := by
  have hrow : ∀ mi ∈ table, mi.magic = oleSignature → mi.extraFunc = some .oless_Detailer := by decide +kernel
  have hone : (table.filter fun mi => decide (mi.extraFunc = some .oless_Detailer)) =
      [⟨b!"oless", b!"OLE Structured Storage", b!"", 0, 4, oleSignature, some .oless_Detailer⟩] := by decide +kernel
  rw [program_eq, hfs, identify_one hlen .oless_Detailer _ hone hat fun mi hm h => hrow mi hm (honly mi hm h)]
  simp only [extract]
  show ((Oless.Guess w.abi w.ole Oless.table w.depth (some content) >>= _) >>= _) = _
  cases hg : Oless.Guess w.abi w.ole Oless.table w.depth (some content) with
  | ok rs =>
    rw [Res.bind_ok, Res.bind_ok, Res.bind_ok, if_neg (by
      rw [List.length_map]
      exact fun h => guess_ne hg (List.length_eq_zero_iff.1 h)), mapRes_map]
    rfl
  | throw e => rfl
  | ub u => rfl
  | fuel => rfl

/-! ## ASF files -/

/-- C93 for ASF files: the program prints a document that shows all objects of the header (C86). -/
theorem C93_asf_partial (w : World) (fs : Bytes → File) (path : Bytes) (rest : List Bytes) (objects : List Spec.Asf.Object)
    (tail content : Bytes) (hcontent : content = Spec.Asf.file objects tail) (hfs : fs path = some content)
    (hv : Spec.Asf.AllValid objects) (hw : (Spec.Asf.file objects []).length ≤ 65536) (hlen : content.length < 2 ^ 32)
    (habi : w.abi = Abi.windows) (hr : content.length ≤ w.room) (hf : content.length < w.fuel)
    (honly : ∀ mi ∈ table, At content mi.offset mi.magic → mi.magic = asfSignature) :
    ∃ ext name, (ext, name) ∈ Spec.Asf.kindNames ∧
      (0 ∉ path → asked rest = .json → ∃ t, program w fs (path :: rest) = .ok t ∧ jsonDocument t = some (JVal.obj
        [(b!"name", .text path), (b!"extensions", .arr [Spec.Asf.fileJson Spec.Asf.program ext objects])]).events) ∧
      (xmlLegal path = true → asked rest = .xml → ∃ t, program w fs (path :: rest) = .ok t ∧ xmlDocument t =
        some (elem b!"file" (elem b!"name" (seen path) ++ elem b!"extensions"
          (Spec.Asf.fileXml Spec.Asf.program ext objects).events))) := by
  have hrow : ∀ mi ∈ table, mi.magic = asfSignature → mi.extraFunc = some .media_asf_Detailer := by decide +kernel
  have hone : (table.filter fun mi => decide (mi.extraFunc = some .media_asf_Detailer)) =
      [⟨b!"asf", b!"ASF Container", b!"", 0, 16, asfSignature, some .media_asf_Detailer⟩] := by decide +kernel
  have hat : At content 0 asfSignature := by
    refine ⟨[], content.drop 16, ?_, rfl⟩
    have e : content.take 16 = asfSignature := by
      rw [hcontent]
      unfold Spec.Asf.file Spec.Asf.frame
      rw [List.append_assoc, List.append_assoc]
      exact List.take_left' (by decide +kernel)
    rw [← e, List.nil_append, List.take_append_drop]
  obtain ⟨item, h1, h2, h3, h4, h5, h6⟩ := C86_shown_as_understood_partial w.room w.fuel objects tail hv hw
    (by rw [← hcontent]; exact hlen) (by rw [← hcontent]; exact hr) (by rw [← hcontent]; exact hf)
  rw [← hcontent, ← habi] at h1
  have hid : identify w (some content) = .ok [.item item] := by
    rw [identify_one hlen .media_asf_Detailer _ hone hat fun mi hm h => hrow mi hm (honly mi hm h)]
    simp only [extract]
    rw [h1]
    rfl
  refine ⟨item.info.Extension, item.info.Name, h2, ?_, ?_⟩
  · intro hp hfm
    have hprog : program w fs (path :: rest) = .ok (Output .json path b!"extensions" [printed item.json]) := by
      rw [program_eq, hfs, hid, hfm]
      rfl
    refine ⟨_, hprog, ?_⟩
    have := C25_json_document_items path hp [(printed item.json, (Spec.Asf.fileJson Spec.Asf.program item.info.Extension objects).events)]
      (by
        intro p hp
        rw [List.mem_singleton.1 hp]
        exact denotes_of_closed (closed_of_document h5))
    rw [List.map_cons, List.map_nil] at this
    rw [this]
    simp [JVal.events, JVal.memberEvents, JVal.itemEvents, JVal.text, chars]
  · intro hp hfm
    have hprog : program w fs (path :: rest) = .ok (Output .xml path b!"extensions" [printed item.xml]) := by
      rw [program_eq, hfs, hid, hfm]
      rfl
    refine ⟨_, hprog, ?_⟩
    have := C26_xml_document_items_partial path hp [(printed item.xml, (Spec.Asf.fileXml Spec.Asf.program item.info.Extension objects).events)]
      (by
        intro p hp
        rw [List.mem_singleton.1 hp]
        exact fun n stack => runX_document h6 n stack)
    rw [List.map_cons, List.map_nil] at this
    rw [this]
    simp

/-! ## Files the theorems apply to -/

/-- Only the ASF signature stands in the sample of C86. -/
example : ∀ mi ∈ table, At (Spec.Asf.file sampleObjects b!"data") mi.offset mi.magic → mi.magic = asfSignature := by
  decide +kernel

/-- A GIF image with a signature and no extractor. -/
def sampleGif : Bytes := b!"GIF89a" ++ [1, 0, 1, 0, 0, 0, 0]

theorem sampleGif_writable (w : World) : Writable w sampleGif ∧ WritableX w sampleGif := by
  have h1 : ¬ At sampleGif 0 b!"PK" := by decide +kernel
  have h2 : ¬ At sampleGif 0 oleSignature := by decide +kernel
  have h3 : ¬ At sampleGif 0 asfSignature := by decide +kernel
  exact ⟨⟨fun h => absurd h h1, fun h => absurd h h2, fun h => absurd h h3⟩,
    ⟨fun h => absurd h h1, fun h => absurd h h2, fun h => absurd h h3⟩⟩

theorem sampleGif_rows : (table.filter fun mi => decide (At sampleGif mi.offset mi.magic)) =
    [⟨b!"gif", b!"GIF Image", b!"GIF89a", 0, 6, b!"GIF89a", none⟩] := by decide +kernel

example (w : World) : program w (fun _ => some sampleGif) [b!"a.gif", b!"json"] =
    .ok b!"{\"name\":\"a.gif\",\"extensions\":[{\"extension\" : \"gif\", \"name\":\"GIF Image\", \"subtype\":\"GIF89a\"}]}" := by
  rw [program_eq, C93_identified w sampleGif (by decide), sampleGif_rows]
  rfl

end Fileid.Props
