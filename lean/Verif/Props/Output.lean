import Verif.Lemmas.Reader
import Verif.Props.Text
import Verif.Model.FileId

/-!
# Output documents (C25 - C27)
-/

namespace Fileid.Props

open Common Spec Magic

/-! ## The items the statements range over -/

/-- An item the program itself makes without a detail extractor: from a table row, the `unknown` fallback
with some sample, or the `empty` fallback. -/
def Reportable (it : Item) : Prop :=
  (∃ mi ∈ table, mi.extraFunc = none ∧
    it = Item.generic { Extension := mi.Extension, Name := mi.Name, SubType := mi.Version }) ∨
  (∃ sample, it = unknownItem sample) ∨ it = emptyItem

/-! ## C25 JSON -/

def chars (s : Bytes) : List Nat := s.map UInt8.toNat

/-- The JSON object a base-class item denotes: one string member per non-empty field. -/
def genericJson (e : ExtInfo) : List JEvent :=
  [.startObj, .key (chars b!"extension"), .str (chars e.Extension)] ++
  (if e.Name.length > 0 then [.key (chars b!"name"), .str (chars e.Name)] else []) ++
  (if e.SubType.length > 0 then [.key (chars b!"subtype"), .str (chars e.SubType)] else []) ++
  (if e.Version > 0 then [.key (chars b!"version"), .str (chars (dec e.Version))] else []) ++
  (if e.VersionName.length > 0 then [.key (chars b!"versionname"), .str (chars e.VersionName)] else []) ++
  [.endObj]

/-- The JSON object of the `unknown` item: the sample as text (up to its first NUL byte) and as hex dump. -/
def unknownJsonEvents (sample : Bytes) : List JEvent :=
  [.startObj, .key (chars b!"extension"), .str (chars b!"unknown"), .key (chars b!"name"),
    .str (chars b!"Unknown File"), .key (chars b!"sampleStr"), .str (chars (sample.takeWhile (· ≠ 0))),
    .key (chars b!"sampleHex"), .str (chars (bin2hex sample)), .endObj]

/-- `it`'s JSON text is a complete value denoting the events `ev`, wherever a value may stand inside an
array. -/
def DenotesJson (it : Item) (ev : List JEvent) : Prop :=
  ∀ stack, run jsonStep (.value, false :: stack) it.json = some ((.after, false :: stack), ev) ∧
    run jsonStep (.valueOrEnd, false :: stack) it.json = some ((.after, false :: stack), ev)

theorem run_member (stack : List Bool) (lit body : Bytes) (key cs : List Nat)
    (hlit : run jsonStep (.after, true :: stack) lit =
      some ((.inStr false [] false, true :: stack), [.key key]))
    (hb : jsonBody body = some cs) :
    run jsonStep (.after, true :: stack) (lit ++ body ++ b!"\"") =
      some ((.after, true :: stack), [.key key, .str cs]) := by
  rw [List.append_assoc]
  have := run_append hlit (run_jsonStr false (true :: stack) body cs hb)
  simpa [afterValue] using this

theorem run_ite (stack : List Bool) (p : Prop) [Decidable p] (t : Bytes) (ev : List JEvent)
    (h : p → run jsonStep (.after, true :: stack) t = some ((.after, true :: stack), ev)) :
    run jsonStep (.after, true :: stack) (if p then t else []) =
      some ((.after, true :: stack), if p then ev else []) := by
  split
  · exact h (by assumption)
  · rfl

/-- The fields that the code writes into JSON without escaping. -/
def jsonSafe (e : ExtInfo) : Bool := jsonPlain e.Extension && jsonPlain e.Name && jsonPlain e.VersionName

theorem jsonBody_dec (n : Nat) : jsonBody (dec n) = some (chars (dec n)) := by
  apply jsonBody_plain
  unfold jsonPlain
  rw [List.all_eq_true]
  intro c hc
  obtain ⟨h1, h2⟩ := dec_chars n c hc
  have h1' : 48 ≤ c.toNat := h1
  have h2' : c.toNat ≤ 57 := h2
  simp only [Bool.and_eq_true, decide_eq_true_eq, bne_iff_ne]
  refine ⟨⟨⟨?_, ?_⟩, ?_⟩, ?_⟩
  · exact UInt8.le_iff_toNat_le.2 (by simp; omega)
  · exact UInt8.le_iff_toNat_le.2 (by simp; omega)
  · intro h; subst h; simp at h1'
  · intro h; subst h; simp at h2'

theorem genericJson_denotes (e : ExtInfo) (h : jsonSafe e = true) (h0 : 0 ∉ e.SubType) :
    DenotesJson (Item.generic e) (genericJson e) := by
  simp only [jsonSafe, Bool.and_eq_true] at h
  obtain ⟨⟨hE, hN⟩, hV⟩ := h
  intro stack
  have first : ∀ m, m = JMode.value ∨ m = JMode.valueOrEnd →
      run jsonStep (m, false :: stack) (b!"{" ++ b!"\"extension\" : \"") =
        some ((.inStr false [] false, true :: false :: stack), [.startObj, .key (chars b!"extension")]) := by
    rintro m (rfl | rfl) <;> rfl
  have ext := run_jsonStr false (true :: false :: stack) e.Extension _ (jsonBody_plain _ hE)
  have name := run_ite (false :: stack) (e.Name.length > 0) _ _ fun _ =>
    run_member (false :: stack) b!", \"name\":\"" e.Name (chars b!"name") _ rfl (jsonBody_plain _ hN)
  have sub := run_ite (false :: stack) (e.SubType.length > 0) _ _ fun _ =>
    run_member (false :: stack) b!", \"subtype\":\"" _ (chars b!"subtype") _ rfl
      (C10_json_escape_lossless_partial e.SubType h0)
  have ver := run_ite (false :: stack) (e.Version > 0) _ _ fun _ =>
    run_member (false :: stack) b!", \"version\" : \"" _ (chars b!"version") _ rfl (jsonBody_dec e.Version)
  have vn := run_ite (false :: stack) (e.VersionName.length > 0) _ _ fun _ =>
    run_member (false :: stack) b!", \"versionname\" : \"" _ (chars b!"versionname") _ rfl
      (jsonBody_plain _ hV)
  have fin : run jsonStep (.after, true :: false :: stack) b!"}" =
      some ((.after, false :: stack), [.endObj]) := rfl
  have go : ∀ m, m = JMode.value ∨ m = JMode.valueOrEnd →
      run jsonStep (m, false :: stack) (Item.generic e).json =
        some ((.after, false :: stack), genericJson e) := by
    intro m hm
    have := run_append (run_append (run_append (run_append (run_append (run_append (first m hm) ext) name)
      sub) ver) vn) fin
    have e1 : (Item.generic e).json = b!"{" ++ b!"\"extension\" : \"" ++ (e.Extension ++ [34]) ++
        (if e.Name.length > 0 then b!", \"name\":\"" ++ e.Name ++ b!"\"" else []) ++
        (if e.SubType.length > 0 then b!", \"subtype\":\"" ++ JsonEscape e.SubType ++ b!"\"" else []) ++
        (if e.Version > 0 then b!", \"version\" : \"" ++ dec e.Version ++ b!"\"" else []) ++
        (if e.VersionName.length > 0 then b!", \"versionname\" : \"" ++ e.VersionName ++ b!"\"" else []) ++
        b!"}" := by
      simp only [Item.generic, ExtInfo.toJson, ExtInfo.buildBaseJson, List.append_assoc]
    rw [e1]
    exact this
  exact ⟨go _ (Or.inl rfl), go _ (Or.inr rfl)⟩

theorem bin2hex_plain (b : Bytes) : jsonPlain (bin2hex b) = true := by
  unfold jsonPlain
  rw [List.all_eq_true]
  intro c hc
  have := C08_hexdump_digits b c hc
  simp only [isLowerHex, Bool.or_eq_true, Bool.and_eq_true, decide_eq_true_eq, UInt8.le_iff_toNat_le] at this
  simp only [Bool.and_eq_true, decide_eq_true_eq, bne_iff_ne, UInt8.le_iff_toNat_le]
  refine ⟨⟨⟨?_, ?_⟩, ?_⟩, ?_⟩
  · simp at this ⊢; omega
  · simp at this ⊢; omega
  · intro h; subst h; simp at this
  · intro h; subst h; simp at this

theorem unknownJson_denotes (sample : Bytes) :
    DenotesJson (unknownItem sample) (unknownJsonEvents sample) := by
  intro stack
  have first : ∀ m, m = JMode.value ∨ m = JMode.valueOrEnd →
      run jsonStep (m, false :: stack) (b!"{" ++ (b!"\"extension\" : \"" ++ b!"unknown" ++ b!"\"" ++
        b!", \"name\" : \"" ++ b!"Unknown File" ++ b!"\"")) =
        some ((.after, true :: false :: stack), [.startObj, .key (chars b!"extension"), .str (chars b!"unknown"),
          .key (chars b!"name"), .str (chars b!"Unknown File")]) := by
    rintro m (rfl | rfl) <;> rfl
  have sstr := run_member (false :: stack) b!", \"sampleStr\":\"" _ (chars b!"sampleStr") _ rfl
    (C10_json_escape_reads_prefix sample)
  have shex := run_member (false :: stack) b!", \"sampleHex\":\"" _ (chars b!"sampleHex") _ rfl
    (jsonBody_plain _ (bin2hex_plain sample))
  have fin : run jsonStep (.after, true :: false :: stack) b!"}" =
      some ((.after, false :: stack), [.endObj]) := rfl
  have go : ∀ m, m = JMode.value ∨ m = JMode.valueOrEnd →
      run jsonStep (m, false :: stack) (unknownItem sample).json =
        some ((.after, false :: stack), unknownJsonEvents sample) := by
    intro m hm
    have := run_append (run_append (run_append (first m hm) sstr) shex) fin
    have e1 : (unknownItem sample).json = b!"{" ++ (b!"\"extension\" : \"" ++ b!"unknown" ++ b!"\"" ++
        b!", \"name\" : \"" ++ b!"Unknown File" ++ b!"\"") ++
        (b!", \"sampleStr\":\"" ++ JsonEscape sample ++ b!"\"") ++
        (b!", \"sampleHex\":\"" ++ bin2hex sample ++ b!"\"") ++ b!"}" := by
      simp only [unknownItem, unknownJson, List.append_assoc]
    rw [e1]
    exact this
  exact ⟨go _ (Or.inl rfl), go _ (Or.inr rfl)⟩

theorem run_jsonItems (stack : List Bool) (items : List (Item × List JEvent))
    (h : ∀ p ∈ items, DenotesJson p.1 p.2) :
    run jsonStep (.after, false :: stack) (jsonItems false (items.map (·.1))) =
      some ((.after, false :: stack), (items.map (·.2)).flatten) := by
  induction items with
  | nil => rfl
  | cons p ps ih =>
    have h1 : run jsonStep (.after, false :: stack) b!"," = some ((.value, false :: stack), []) := rfl
    have h2 := (h p (by simp) stack).1
    have h3 := ih (fun q hq => h q (by simp [hq]))
    have := run_append (run_append h1 h2) h3
    simpa [jsonItems] using this

/-- C25, general form: for every NUL-free file name and every list of items whose own JSON texts denote
objects, the output is one JSON document: an object with the members `name` and `extensions`, the latter an
array holding the items' objects in order. -/
theorem C25_json_document_items (file : Bytes) (hfile : 0 ∉ file) (items : List (Item × List JEvent))
    (h : ∀ p ∈ items, DenotesJson p.1 p.2) :
    jsonDocument (Output .json file b!"extensions" (items.map (·.1))) =
      some ([.startObj, .key (chars b!"name"), .str (chars file), .key (chars b!"extensions"), .startArr] ++
        (items.map (·.2)).flatten ++ [.endArr, .endObj]) := by
  have h1 : run jsonStep (.value, []) b!"{\"name\":\"" =
      some ((.inStr false [] false, [true]), [.startObj, .key (chars b!"name")]) := rfl
  have h2 := run_jsonStr false [true] (JsonEscape file) _ (C10_json_escape_lossless_partial file hfile)
  have h3 : run jsonStep (.after, [true]) (b!"," ++ b!"\"" ++ b!"extensions" ++ b!"\":[") =
      some ((.valueOrEnd, [false, true]), [.key (chars b!"extensions"), .startArr]) := rfl
  have h4 : run jsonStep (.valueOrEnd, [false, true]) (jsonItems true (items.map (·.1)) ++ b!"]") =
      some ((.after, [true]), (items.map (·.2)).flatten ++ [.endArr]) := by
    cases items with
    | nil => rfl
    | cons p ps =>
      have g1 := (h p (by simp) [true]).2
      have g2 := run_jsonItems [true] ps (fun q hq => h q (by simp [hq]))
      have g3 : run jsonStep (.after, [false, true]) b!"]" = some ((.after, [true]), [.endArr]) := rfl
      have := run_append (run_append g1 g2) g3
      simpa [jsonItems] using this
  have h5 : run jsonStep (.after, [true]) b!"}" = some ((.fin, []), [.endObj]) := rfl
  have hall := run_append (run_append (run_append (run_append h1 h2) h3) h4) h5
  have e : Output .json file b!"extensions" (items.map (·.1)) =
      b!"{\"name\":\"" ++ (JsonEscape file ++ [34]) ++ (b!"," ++ b!"\"" ++ b!"extensions" ++ b!"\":[") ++
        (jsonItems true (items.map (·.1)) ++ b!"]") ++ b!"}" := by
    simp [Output]
  unfold jsonDocument
  rw [e, hall]
  simp [chars]

theorem table_json_safe : ∀ mi ∈ table, mi.extraFunc = none →
    jsonPlain mi.Extension = true ∧ jsonPlain mi.Name = true ∧ 0 ∉ mi.Version := by decide +kernel

/-- What the JSON object of a reportable item says. -/
inductive ItemJson : Item → List JEvent → Prop
  | row (mi : MagicInfo) (h : mi ∈ table) (hx : mi.extraFunc = none) :
      ItemJson (Item.generic { Extension := mi.Extension, Name := mi.Name, SubType := mi.Version })
        (genericJson { Extension := mi.Extension, Name := mi.Name, SubType := mi.Version })
  | unknown (sample : Bytes) : ItemJson (unknownItem sample) (unknownJsonEvents sample)
  | empty : ItemJson emptyItem
      [.startObj, .key (chars b!"extension"), .str (chars b!"empty"), .key (chars b!"name"),
        .str (chars b!"Empty File"), .endObj]

/-- C25: for every NUL-free file name and every list of reportable items the JSON output is one well-formed
document with the members `name` (the file name) and `extensions` (one object per item, in order). -/
theorem C25_json_document (file : Bytes) (hfile : 0 ∉ file) (items : List Item)
    (h : ∀ it ∈ items, Reportable it) :
    ∃ evs : List (List JEvent), Pointwise ItemJson items evs ∧
      jsonDocument (Output .json file b!"extensions" items) =
        some ([.startObj, .key (chars b!"name"), .str (chars file), .key (chars b!"extensions"), .startArr] ++
          evs.flatten ++ [.endArr, .endObj]) := by
  have key : ∀ items : List Item, (∀ it ∈ items, Reportable it) →
      ∃ ps : List (Item × List JEvent), ps.map (·.1) = items ∧
        Pointwise ItemJson items (ps.map (·.2)) ∧ ∀ p ∈ ps, DenotesJson p.1 p.2 := by
    intro items
    induction items with
    | nil => intro _; exact ⟨[], rfl, .nil, by simp⟩
    | cons it its ih =>
      intro h
      obtain ⟨ps, hp1, hp2, hp3⟩ := ih (fun x hx => h x (by simp [hx]))
      have hone : ∃ ev, ItemJson it ev ∧ DenotesJson it ev := by
        rcases h it (by simp) with ⟨mi, hmi, hx, rfl⟩ | ⟨sample, rfl⟩ | rfl
        · obtain ⟨t1, t2, t3⟩ := table_json_safe mi hmi hx
          exact ⟨_, .row mi hmi hx, genericJson_denotes _ (by simp only [jsonSafe, t1, t2]; rfl) t3⟩
        · exact ⟨_, .unknown sample, unknownJson_denotes sample⟩
        · exact ⟨_, .empty, genericJson_denotes { Extension := b!"empty", Name := b!"Empty File" }
            (by decide) (by simp)⟩
      obtain ⟨ev, hev1, hev2⟩ := hone
      refine ⟨(it, ev) :: ps, by simp [hp1], .cons hev1 hp2, ?_⟩
      intro p hp
      rcases List.mem_cons.1 hp with rfl | hp
      · exact hev2
      · exact hp3 p hp
  obtain ⟨ps, hp1, hp2, hp3⟩ := key items h
  refine ⟨ps.map (·.2), hp2, ?_⟩
  rw [← hp1]
  exact C25_json_document_items file hfile ps hp3

/-- Reportable items exist, and the file name condition can be met. -/
example : Reportable (unknownItem [1, 0, 2]) ∧ Reportable emptyItem ∧ (0 : UInt8) ∉ b!"C:\\a\"b" :=
  ⟨Or.inr (Or.inl ⟨_, rfl⟩), Or.inr (Or.inr rfl), by decide⟩

/-- The restriction to safe names matters: an item whose name holds a quote breaks the document, because
the code writes the name without escaping. -/
theorem C25_unescaped_name_breaks :
    jsonDocument (Output .json b!"f" b!"extensions"
      [Item.generic { Extension := b!"x", Name := b!"a\"b" }]) = none := by decide +kernel

/-! ## C26 XML -/

/-- What a reader sees for a text the code escaped: `<` and `>` are exchanged (see C12). -/
def seen (s : Bytes) : List XEvent :=
  s.map fun c => .char (if c = 62 then 60 else if c = 60 then 62 else c.toNat)

/-- Text written as it is. -/
def lit (s : Bytes) : List XEvent := s.map fun c => .char c.toNat

/-- An element with the given content. -/
def elem (name : Bytes) (content : List XEvent) : List XEvent := [.opened name] ++ content ++ [.closed name]

def genericXml (e : ExtInfo) : List XEvent :=
  elem b!"item" (elem b!"extension" (lit e.Extension) ++
    (if e.Name.length > 0 then elem b!"name" (lit e.Name) else []) ++
    (if e.SubType.length > 0 then elem b!"subtype" (seen e.SubType) else []) ++
    (if e.Version > 0 then elem b!"version" (lit (dec e.Version)) else []) ++
    (if e.VersionName.length > 0 then elem b!"versionname" (lit e.VersionName) else []))

/-- The `unknown` item's element. The escaped sample stands in a CDATA section, so its references are not
resolved. -/
def unknownXmlEvents (sample : Bytes) : List XEvent :=
  elem b!"item" (elem b!"extension" (lit b!"unknown") ++ elem b!"name" (lit b!"Unknown File") ++
    elem b!"sampleStr" (lit (XmlEscape sample)) ++ elem b!"sampleHex" (lit (bin2hex sample)))

/-- `it`'s XML text is complete content denoting `ev`, wherever content may stand. -/
def DenotesXml (it : Item) (ev : List XEvent) : Prop :=
  ∀ n stack, run xmlStep (.text, n :: stack) it.xml = some ((.text, n :: stack), ev)

/-- Characters that stand for themselves in XML text. -/
def xmlPlain (s : Bytes) : Bool := s.all fun c => 32 ≤ c && c < 127 && c != 38 && c != 60

theorem run_xmlPlain (n : Bytes) (stack : List Bytes) (s : Bytes) (h : xmlPlain s = true) :
    run xmlStep (.text, n :: stack) s = some ((.text, n :: stack), lit s) := by
  induction s with
  | nil => rfl
  | cons c s ih =>
    simp only [xmlPlain, List.all_cons, Bool.and_eq_true, decide_eq_true_eq, bne_iff_ne] at h
    obtain ⟨⟨⟨⟨h1, h2⟩, h3⟩, h4⟩, h5⟩ := h
    have hs : xmlStep (.text, n :: stack) c = some ((.text, n :: stack), [.char c.toNat]) := by
      have l1 : 32 ≤ c.toNat := UInt8.le_iff_toNat_le.1 h1
      have l2 : c < 128 := UInt8.lt_iff_toNat_lt.2 (by have := UInt8.lt_iff_toNat_lt.1 h2; simp at this ⊢; omega)
      simp [xmlStep, h3, h4, isXmlChar, l1, l2]
    exact run_cons hs (ih (by simpa [xmlPlain] using h5))

/-- A character whose escaped form is a legal XML character. -/
def xmlLegal (s : Bytes) : Bool := s.all fun c => isXmlChar c.toNat

theorem run_ref (n : Bytes) (stack : List Bytes) (ds : Bytes) (v : Nat) (hv : isXmlChar v = true)
    (hd : ∀ c ∈ ds, 48 ≤ c ∧ c ≤ 57) (hr : readNumeral 10 ds = some v) :
    run xmlStep (.text, n :: stack) (b!"&#" ++ ds ++ b!";") = some ((.text, n :: stack), [.char v]) := by
  have h1 : run xmlStep (.text, n :: stack) b!"&#" = some ((.ref [], n :: stack), []) := rfl
  have h2 : ∀ (ds acc : Bytes), (∀ c ∈ ds, 48 ≤ c ∧ c ≤ 57) →
      run xmlStep (.ref acc, n :: stack) ds = some ((.ref (acc ++ ds), n :: stack), []) := by
    intro ds
    induction ds with
    | nil => intro acc _; simp [run]
    | cons c cs ih =>
      intro acc hd
      have hc : c ≠ 59 := by
        intro h; subst h
        have := (hd 59 (by simp)).2
        revert this; decide
      have := ih (acc ++ [c]) (fun x hx => hd x (by simp [hx]))
      simp [run, xmlStep, hc, this]
  have h3 : run xmlStep (.ref ([] ++ ds), n :: stack) b!";" = some ((.text, n :: stack), [.char v]) := by
    simp [run, xmlStep, hr, hv]
  exact run_append (run_append h1 (h2 ds [] hd)) h3

theorem run_xmlEscapeChar (n : Bytes) (stack : List Bytes) (c : UInt8) (h : isXmlChar c.toNat = true) :
    run xmlStep (.text, n :: stack) (xmlEscapeChar c) = some ((.text, n :: stack), seen [c]) := by
  unfold xmlEscapeChar
  by_cases h1 : c = 34
  · subst h1; rfl
  by_cases h2 : c = 38
  · subst h2; rfl
  by_cases h3 : c = 39
  · subst h3; rfl
  by_cases h4 : c = 62
  · subst h4; rfl
  by_cases h5 : c = 60
  · subst h5; rfl
  have hseen : seen [c] = [.char c.toNat] := by simp [seen, h4, h5]
  simp only [h1, h2, h3, h4, h5, if_false, hseen]
  by_cases h6 : (iscntrl c || decide (c > 127)) = true
  · rw [if_pos h6]
    exact run_ref n stack _ _ h
      (setw0_chars 2 _ (fun c => 48 ≤ c ∧ c ≤ 57) (by decide) (dec_chars c.toNat))
      (readNumeral_setw0_dec 2 c.toNat)
  · rw [if_neg h6]
    simp only [Bool.or_eq_true, decide_eq_true_eq, not_or] at h6
    have hlt : c < 128 := by
      have := h6.2
      rw [gt_iff_lt, UInt8.lt_iff_toNat_lt] at this
      rw [UInt8.lt_iff_toNat_lt]; simp at this ⊢; omega
    simp [run, xmlStep, h2, h5, h, hlt]

theorem run_XmlEscape (n : Bytes) (stack : List Bytes) (s : Bytes) (h : xmlLegal s = true) :
    run xmlStep (.text, n :: stack) (XmlEscape s) = some ((.text, n :: stack), seen s) := by
  induction s with
  | nil => rfl
  | cons c s ih =>
    simp only [xmlLegal, List.all_cons, Bool.and_eq_true] at h
    rw [XmlEscape_cons]
    have := run_append (run_xmlEscapeChar n stack c h.1) (ih h.2)
    simpa [seen] using this

theorem run_cdata (stack : List Bytes) (s : Bytes) (hs : ∀ c ∈ s, 32 ≤ c ∧ c ≤ 126 ∧ c ≠ 62) (k : Nat)
    (hk : k ≤ 2) :
    run xmlStep (.cdata k, stack) (s ++ b!"]]>") =
      some ((.text, stack), List.replicate k (.char 93) ++ lit s) := by
  induction s generalizing k with
  | nil =>
    have : k = 0 ∨ k = 1 ∨ k = 2 := by omega
    rcases this with rfl | rfl | rfl <;> rfl
  | cons c s ih =>
    have hc := hs c (by simp)
    have ih' := fun k hk => ih (fun x hx => hs x (by simp [hx])) k hk
    rw [List.cons_append, run]
    by_cases h93 : c = 93
    · subst h93
      by_cases hk2 : k = 2
      · subst hk2
        have := ih' 2 (by omega)
        simp only [xmlStep, if_true, this]
        rfl
      · have := ih' (k + 1) (by omega)
        simp only [xmlStep, if_true, hk2, if_false, this]
        simp [lit, List.replicate_succ']
    · have := ih' 0 (by omega)
      have l1 : 32 ≤ c.toNat := UInt8.le_iff_toNat_le.1 hc.1
      have l2 : c < 128 := by
        have := UInt8.le_iff_toNat_le.1 hc.2.1
        rw [UInt8.lt_iff_toNat_lt]; simp at this ⊢; omega
      simp [xmlStep, h93, hc.2.2, isXmlChar, l1, l2, this, lit]

/-- An element written as `<name>` content `</name>`. -/
theorem run_elem (n : Bytes) (stack : List Bytes) (name open_ close_ body : Bytes) (content : List XEvent)
    (ho : run xmlStep (.text, n :: stack) open_ = some ((.text, name :: n :: stack), [.opened name]))
    (hb : run xmlStep (.text, name :: n :: stack) body = some ((.text, name :: n :: stack), content))
    (hc : run xmlStep (.text, name :: n :: stack) close_ = some ((.text, n :: stack), [.closed name])) :
    run xmlStep (.text, n :: stack) (open_ ++ body ++ close_) =
      some ((.text, n :: stack), elem name content) := by
  exact run_append (run_append ho hb) hc

theorem run_iteX (s : XState) (p : Prop) [Decidable p] (t : Bytes) (ev : List XEvent)
    (h : p → run xmlStep s t = some (s, ev)) :
    run xmlStep s (if p then t else []) = some (s, if p then ev else []) := by
  split
  · exact h (by assumption)
  · rfl

theorem xmlPlain_dec (k : Nat) : xmlPlain (dec k) = true := by
  unfold xmlPlain
  rw [List.all_eq_true]
  intro c hc
  obtain ⟨h1, h2⟩ := dec_chars k c hc
  rw [UInt8.le_iff_toNat_le] at h1 h2
  simp only [Bool.and_eq_true, decide_eq_true_eq, bne_iff_ne, UInt8.le_iff_toNat_le, UInt8.lt_iff_toNat_lt]
  refine ⟨⟨⟨?_, ?_⟩, ?_⟩, ?_⟩
  · simp at h1 ⊢; omega
  · simp at h2 ⊢; omega
  · intro h; subst h; simp at h1
  · intro h; subst h; simp at h2

theorem xmlPlain_bin2hex (b : Bytes) : xmlPlain (bin2hex b) = true := by
  unfold xmlPlain
  rw [List.all_eq_true]
  intro c hc
  have := C08_hexdump_digits b c hc
  simp only [isLowerHex, Bool.or_eq_true, Bool.and_eq_true, decide_eq_true_eq, UInt8.le_iff_toNat_le] at this
  simp only [Bool.and_eq_true, decide_eq_true_eq, bne_iff_ne, UInt8.le_iff_toNat_le, UInt8.lt_iff_toNat_lt]
  refine ⟨⟨⟨?_, ?_⟩, ?_⟩, ?_⟩
  · simp at this ⊢; omega
  · simp at this ⊢; omega
  · intro h; subst h; simp at this
  · intro h; subst h; simp at this

theorem genericXml_denotes (e : ExtInfo) (hE : xmlPlain e.Extension = true) (hN : xmlPlain e.Name = true)
    (hV : xmlPlain e.VersionName = true) (hS : xmlLegal e.SubType = true) :
    DenotesXml (Item.generic e) (genericXml e) := by
  intro n stack
  have ext := run_elem b!"item" (n :: stack) b!"extension" b!"<extension>" b!"</extension>" _ _ rfl
    (run_xmlPlain _ _ e.Extension hE) rfl
  have name := run_iteX _ (e.Name.length > 0) _ _ fun _ =>
    run_elem b!"item" (n :: stack) b!"name" b!"<name>" b!"</name>" _ _ rfl (run_xmlPlain _ _ e.Name hN) rfl
  have sub := run_iteX _ (e.SubType.length > 0) _ _ fun _ =>
    run_elem b!"item" (n :: stack) b!"subtype" b!"<subtype>" b!"</subtype>" _ _ rfl
      (run_XmlEscape _ _ e.SubType hS) rfl
  have ver := run_iteX _ (e.Version > 0) _ _ fun _ =>
    run_elem b!"item" (n :: stack) b!"version" b!"<version>" b!"</version>" _ _ rfl
      (run_xmlPlain _ _ (dec e.Version) (xmlPlain_dec _)) rfl
  have vn := run_iteX _ (e.VersionName.length > 0) _ _ fun _ =>
    run_elem b!"item" (n :: stack) b!"versionname" b!"<versionname>" b!"</versionname>" _ _ rfl
      (run_xmlPlain _ _ e.VersionName hV) rfl
  have inner := run_append (run_append (run_append (run_append ext name) sub) ver) vn
  have := run_elem n stack b!"item" b!"<item>" b!"</item>" _ _ rfl inner rfl
  exact this

theorem unknownXml_denotes (sample : Bytes) : DenotesXml (unknownItem sample) (unknownXmlEvents sample) := by
  intro n stack
  have ext := run_elem b!"item" (n :: stack) b!"extension" b!"<extension>" b!"</extension>" _ _ rfl
    (run_xmlPlain _ _ b!"unknown" (by decide)) rfl
  have name := run_elem b!"item" (n :: stack) b!"name" b!"<name>" b!"</name>" _ _ rfl
    (run_xmlPlain _ _ b!"Unknown File" (by decide)) rfl
  have cd : run xmlStep (.text, b!"sampleStr" :: b!"item" :: n :: stack)
      (b!"<![CDATA[" ++ (XmlEscape sample ++ b!"]]>")) =
      some ((.text, b!"sampleStr" :: b!"item" :: n :: stack), [] ++ lit (XmlEscape sample)) := by
    have c1 : run xmlStep (.text, b!"sampleStr" :: b!"item" :: n :: stack) b!"<![CDATA[" =
        some ((.cdata 0, b!"sampleStr" :: b!"item" :: n :: stack), []) := rfl
    have c2 := run_cdata (b!"sampleStr" :: b!"item" :: n :: stack) (XmlEscape sample) (fun c hc => by
      have := C11_xml_escape_safe sample c hc
      exact ⟨this.1, this.2.1, this.2.2.2.1⟩) 0 (by omega)
    exact run_append c1 c2
  have sstr := run_elem b!"item" (n :: stack) b!"sampleStr" b!"<sampleStr>" b!"</sampleStr>" _ _ rfl cd rfl
  have shex := run_elem b!"item" (n :: stack) b!"sampleHex" b!"<sampleHex>" b!"</sampleHex>" _ _ rfl
    (run_xmlPlain _ _ _ (xmlPlain_bin2hex sample)) rfl
  have inner := run_append (run_append (run_append ext name) sstr) shex
  have := run_elem n stack b!"item" b!"<item>" b!"</item>" _ _ rfl inner rfl
  have e1 : (unknownItem sample).xml = b!"<item>" ++ (b!"<extension>" ++ b!"unknown" ++ b!"</extension>" ++
      (b!"<name>" ++ b!"Unknown File" ++ b!"</name>") ++
      (b!"<sampleStr>" ++ (b!"<![CDATA[" ++ (XmlEscape sample ++ b!"]]>")) ++ b!"</sampleStr>") ++
      (b!"<sampleHex>" ++ bin2hex sample ++ b!"</sampleHex>")) ++ b!"</item>" := by
    simp [unknownItem, unknownXml]
  rw [e1]
  exact this

/-- C26, general form: for every file name without characters that XML forbids and every list of items whose
own XML texts denote content, the output is one element `file` with the elements `name` and `extensions`,
the latter holding the items' contents in order. -/
theorem C26_xml_document_items_partial (file : Bytes) (hfile : xmlLegal file = true)
    (items : List (Item × List XEvent)) (h : ∀ p ∈ items, DenotesXml p.1 p.2) :
    xmlDocument (Output .xml file b!"extensions" (items.map (·.1))) =
      some (elem b!"file" (elem b!"name" (seen file) ++
        elem b!"extensions" (items.map (·.2)).flatten)) := by
  have h1 : run xmlStep (.text, []) b!"<file>" = some ((.text, [b!"file"]), [.opened b!"file"]) := rfl
  have h2 := run_elem b!"file" [] b!"name" b!"<name>" b!"</name>" _ _ rfl (run_XmlEscape _ _ file hfile) rfl
  have h3 : ∀ items : List (Item × List XEvent), (∀ p ∈ items, DenotesXml p.1 p.2) →
      run xmlStep (.text, [b!"extensions", b!"file"]) ((items.map (·.1)).map fun i => i.xml).flatten =
        some ((.text, [b!"extensions", b!"file"]), (items.map (·.2)).flatten) := by
    intro items
    induction items with
    | nil => intro _; rfl
    | cons p ps ih =>
      intro h
      have := run_append (h p (by simp) b!"extensions" [b!"file"]) (ih fun q hq => h q (by simp [hq]))
      simpa using this
  have h4 := run_elem b!"file" [] b!"extensions" b!"<extensions>" b!"</extensions>" _ _ rfl (h3 items h) rfl
  have h5 : run xmlStep (.text, [b!"file"]) b!"</file>" = some ((.fin, []), [.closed b!"file"]) := rfl
  have hall := run_append (run_append (run_append h1 h2) h4) h5
  have e : Output .xml file b!"extensions" (items.map (·.1)) =
      b!"<file>" ++ (b!"<name>" ++ XmlEscape file ++ b!"</name>") ++
        (b!"<extensions>" ++ ((items.map (·.1)).map fun i => i.xml).flatten ++ b!"</extensions>") ++
        b!"</file>" := by
    simp [Output]
  unfold xmlDocument
  rw [e, hall]
  simp [elem]

theorem table_xml_safe : ∀ mi ∈ table, mi.extraFunc = none →
    xmlPlain mi.Extension = true ∧ xmlPlain mi.Name = true ∧ xmlLegal mi.Version = true := by decide +kernel

/-- What the XML element of a reportable item says. -/
inductive ItemXml : Item → List XEvent → Prop
  | row (mi : MagicInfo) (h : mi ∈ table) (hx : mi.extraFunc = none) :
      ItemXml (Item.generic { Extension := mi.Extension, Name := mi.Name, SubType := mi.Version })
        (genericXml { Extension := mi.Extension, Name := mi.Name, SubType := mi.Version })
  | unknown (sample : Bytes) : ItemXml (unknownItem sample) (unknownXmlEvents sample)
  | empty : ItemXml emptyItem
      (elem b!"item" (elem b!"extension" (lit b!"empty") ++ elem b!"name" (lit b!"Empty File")))

/-- C26 for file names without control characters other than tab, LF and CR. Missing: file names with other
control characters, for which it is false (`C26_control_character_breaks`); and `<`, `>` in the file name
come back exchanged (C12). -/
theorem C26_xml_document_partial (file : Bytes) (hfile : xmlLegal file = true) (items : List Item)
    (h : ∀ it ∈ items, Reportable it) :
    ∃ evs : List (List XEvent), Pointwise ItemXml items evs ∧
      xmlDocument (Output .xml file b!"extensions" items) =
        some (elem b!"file" (elem b!"name" (seen file) ++ elem b!"extensions" evs.flatten)) := by
  have key : ∀ items : List Item, (∀ it ∈ items, Reportable it) →
      ∃ ps : List (Item × List XEvent), ps.map (·.1) = items ∧
        Pointwise ItemXml items (ps.map (·.2)) ∧ ∀ p ∈ ps, DenotesXml p.1 p.2 := by
    intro items
    induction items with
    | nil => intro _; exact ⟨[], rfl, .nil, by simp⟩
    | cons it its ih =>
      intro h
      obtain ⟨ps, hp1, hp2, hp3⟩ := ih (fun x hx => h x (by simp [hx]))
      have hone : ∃ ev, ItemXml it ev ∧ DenotesXml it ev := by
        rcases h it (by simp) with ⟨mi, hmi, hx, rfl⟩ | ⟨sample, rfl⟩ | rfl
        · obtain ⟨t1, t2, t3⟩ := table_xml_safe mi hmi hx
          exact ⟨_, .row mi hmi hx, genericXml_denotes _ t1 t2 rfl t3⟩
        · exact ⟨_, .unknown sample, unknownXml_denotes sample⟩
        · exact ⟨_, .empty, genericXml_denotes { Extension := b!"empty", Name := b!"Empty File" }
            (by decide) (by decide) (by decide) (by decide)⟩
      obtain ⟨ev, hev1, hev2⟩ := hone
      refine ⟨(it, ev) :: ps, by simp [hp1], .cons hev1 hp2, ?_⟩
      intro p hp
      rcases List.mem_cons.1 hp with rfl | hp
      · exact hev2
      · exact hp3 p hp
  obtain ⟨ps, hp1, hp2, hp3⟩ := key items h
  refine ⟨ps.map (·.2), hp2, ?_⟩
  rw [← hp1]
  exact C26_xml_document_items_partial file hfile ps hp3

example : xmlLegal b!"C:\\a&b <c>.bin" = true := by decide

/-- C26 is false of the code: a control character in the file name becomes a reference to a character XML
does not allow. -/
theorem C26_control_character_breaks :
    xmlDocument (Output .xml [97, 1] b!"extensions" [emptyItem]) = none := by decide +kernel

/-! ## C27 text and CSV -/

/-- C27 (text): with line-free file name and items, the output's lines are the file name and one indented
line per item. -/
theorem C27_text_lines (file hdr : Bytes) (items : List Item) (hf : 10 ∉ file)
    (hi : ∀ it ∈ items, 10 ∉ it.text) :
    splitAll 10 (Output .text file hdr items) = file :: items.map (fun it => 9 :: it.text) ++ [[]] := by
  have key : ∀ items : List Item, (∀ it ∈ items, 10 ∉ it.text) →
      splitAll 10 (items.map fun i => b!"\t" ++ i.text ++ b!"\n").flatten =
        items.map (fun it => 9 :: it.text) ++ [[]] := by
    intro items
    induction items with
    | nil => intro _; rfl
    | cons it its ih =>
      intro h
      have e : ((it :: its).map fun i => b!"\t" ++ i.text ++ b!"\n").flatten =
          (9 :: it.text) ++ 10 :: (its.map fun i => b!"\t" ++ i.text ++ b!"\n").flatten := by simp
      rw [e, splitAll_sep 10 _ _ (by
        have := h it (by simp)
        simp [this]), ih (fun x hx => h x (by simp [hx]))]
      rfl
  have e : Output .text file hdr items =
      file ++ 10 :: (items.map fun i => b!"\t" ++ i.text ++ b!"\n").flatten := by simp [Output]
  rw [e, splitAll_sep 10 _ _ hf, key items hi]
  rfl

/-- C27 (CSV): one line per item. -/
theorem C27_csv_lines (file hdr : Bytes) (items : List Item) (hi : ∀ it ∈ items, 10 ∉ it.csv) :
    splitAll 10 (Output .csv file hdr items) = items.map (fun it => it.csv) ++ [[]] := by
  have e : Output .csv file hdr items = (items.map fun i => i.csv ++ b!"\n").flatten := rfl
  rw [e]
  induction items with
  | nil => rfl
  | cons it its ih =>
    have e : ((it :: its).map fun i => i.csv ++ b!"\n").flatten =
        it.csv ++ 10 :: (its.map fun i => i.csv ++ b!"\n").flatten := by simp
    rw [e, splitAll_sep 10 _ _ (hi it (by simp)), ih (fun x hx => hi x (by simp [hx])) rfl]
    rfl

theorem dec_not_mem (n : Nat) (c : UInt8) (hc : c < 48 ∨ 57 < c) : c ∉ dec n := by
  intro h
  exact dec_ne n c hc c h rfl

/-- Splitting the line of a base-class item at the separator gives back its five fields, when none of the
texts contains the separator. -/
theorem C27_fields (sep : UInt8) (hsep : sep = 9 ∨ sep = 44) (e : ExtInfo)
    (h1 : sep ∉ e.Extension) (h2 : sep ∉ e.Name) (h3 : sep ∉ e.SubType) (h4 : sep ∉ e.VersionName) :
    splitAll sep (if sep = 9 then e.toText else e.toCsv) =
      [e.Extension, e.Name, e.SubType, dec e.Version, e.VersionName] := by
  have hd : sep ∉ dec e.Version := dec_not_mem _ _ (by rcases hsep with rfl | rfl <;> decide)
  have e1 : (if sep = 9 then e.toText else e.toCsv) =
      e.Extension ++ sep :: (e.Name ++ sep :: (e.SubType ++ sep :: (dec e.Version ++ sep :: e.VersionName))) := by
    rcases hsep with rfl | rfl <;> simp [ExtInfo.toText, ExtInfo.toCsv]
  rw [e1, splitAll_sep _ _ _ h1, splitAll_sep _ _ _ h2, splitAll_sep _ _ _ h3, splitAll_sep _ _ _ hd,
    splitAll_none _ _ h4]

/-- C27 for the table: no row reported without extractor contains a tab, comma or newline, so the conditions
of the theorems above hold for it. -/
theorem C27_table_rows_clean : ∀ mi ∈ table, mi.extraFunc = none →
    ∀ c ∈ [9, 10, 44], c ∉ mi.Extension ∧ c ∉ mi.Name ∧ c ∉ mi.Version := by decide +kernel

/-- C27 is false of arbitrary items: a comma in a field shifts the CSV columns, as fields are not quoted. -/
theorem C27_csv_comma_breaks :
    ∃ e : ExtInfo, splitAll 44 e.toCsv ≠ [e.Extension, e.Name, e.SubType, dec e.Version, e.VersionName] :=
  ⟨{ Extension := b!"o", SubType := b!"32-bit, big-endian" }, by decide⟩

end Fileid.Props
