import Verif.Lemmas.Asf

/-!
# Lemmas about what is shown for ASF files
-/

namespace Fileid.Asf

open Common Spec Spec.Asf

/-! ## Texts that stand for themselves -/

/-- The text stands for itself in JSON strings and between XML tags. -/
def Plain (s : Bytes) : Prop := jsonPlain s = true ∧ xmlVerbatim s = true

theorem Plain.of_mem {s : Bytes} (h : ∀ c ∈ s, 32 ≤ c.toNat ∧ c.toNat < 127 ∧ c ≠ 34 ∧ c ≠ 92 ∧ c ≠ 38 ∧ c ≠ 60) :
    Plain s := by
  constructor
  · unfold jsonPlain
    rw [List.all_eq_true]
    intro c hc
    obtain ⟨h1, h2, h3, h4, _, _⟩ := h c hc
    simp only [Bool.and_eq_true, decide_eq_true_eq, bne_iff_ne, UInt8.le_iff_toNat_le]
    exact ⟨⟨⟨h1, Nat.le_of_lt h2⟩, h3⟩, h4⟩
  · unfold xmlVerbatim
    rw [List.all_eq_true]
    intro c hc
    obtain ⟨h1, h2, _, _, h3, h4⟩ := h c hc
    simp only [Bool.and_eq_true, decide_eq_true_eq, bne_iff_ne, UInt8.le_iff_toNat_le, UInt8.lt_iff_toNat_lt]
    exact ⟨⟨⟨h1, Nat.lt_succ_of_lt h2⟩, h3⟩, h4⟩

theorem Plain.of_plain {s : Bytes} (h : plain s = true) : Plain s := Plain.of_mem fun _ hc => plain_mem h hc

theorem digit_props : ∀ n < 16, 32 < (digitLower n).toNat ∧ (digitLower n).toNat < 127 ∧ digitLower n ≠ 34 ∧
    digitLower n ≠ 92 ∧ digitLower n ≠ 38 ∧ digitLower n ≠ 60 := by decide +kernel

theorem hexText_mem {b : Bytes} {c : UInt8} (h : c ∈ hexText b) : ∃ n < 16, c = digitLower n := by
  unfold hexText at h
  rw [List.mem_flatMap] at h
  obtain ⟨x, _, hx⟩ := h
  have hl := x.toNat_lt
  simp only [List.mem_cons, List.not_mem_nil, or_false] at hx
  rcases hx with rfl | rfl
  · exact ⟨_, by omega, rfl⟩
  · exact ⟨_, by omega, rfl⟩

theorem dec_mem {n : Nat} {c : UInt8} (h : c ∈ dec n) : ∃ k < 16, c = digitLower k := by
  have : ∀ c ∈ dec n, isDigit c = true := by
    rcases dec_shape n with h | ⟨d, ds, h, hd, _, hds⟩
    · rw [h]; decide
    · rw [h]
      intro c hc
      rcases List.mem_cons.1 hc with rfl | hc
      · exact hd
      · exact hds c hc
  have hd := this c h
  simp only [isDigit, Bool.and_eq_true, decide_eq_true_eq, UInt8.le_iff_toNat_le] at hd
  have h1 : (48 : UInt8).toNat = 48 := rfl
  have h2 : (57 : UInt8).toNat = 57 := rfl
  rw [h1, h2] at hd
  have key : ∀ k < 10, (digitLower k).toNat = 48 + k := by decide
  refine ⟨c.toNat - 48, by omega, ?_⟩
  apply UInt8.toNat_inj.1
  rw [key _ (by omega)]
  omega

theorem Plain.of_digits {s : Bytes} (h : ∀ c ∈ s, ∃ n < 16, c = digitLower n) : Plain s := by
  refine Plain.of_mem fun c hc => ?_
  obtain ⟨n, hn, rfl⟩ := h c hc
  obtain ⟨h1, h2, h3⟩ := digit_props n hn
  exact ⟨Nat.le_of_lt h1, h2, h3⟩

theorem Plain.hex (b : Bytes) : Plain (hexText b) := Plain.of_digits fun _ h => hexText_mem h
theorem Plain.dec (n : Nat) : Plain (Fileid.dec n) := Plain.of_digits fun _ h => dec_mem h
theorem Plain.typeName (id : Bytes) : Plain (program.typeName id) := by
  rw [← typeName_eq]; exact toString_plain _

theorem trim_id {s : Bytes} (hl : s.length < npos) (h1 : ∀ c, s.head? = some c → c ∉ whitespace)
    (h2 : ∀ c, s.getLast? = some c → c ∉ whitespace) : trim whitespace s = .ok s := by
  obtain ⟨pre', r', suf', g1, g2, g3, g4, _, _⟩ := Props.C13_trim whitespace s hl
  rw [g1]
  have hpre : pre' = [] := by
    cases pre' with
    | nil => rfl
    | cons x xs => exact absurd (g3 x (by simp)) (h1 x (by rw [g2]; simp))
  have hsuf : suf' = [] := by
    rcases List.eq_nil_or_concat suf' with h' | ⟨ys, y, h'⟩
    · exact h'
    · have hy : y ∈ whitespace := g4 y (by rw [h']; simp)
      exact absurd hy (h2 y (by rw [g2, h']; simp))
  subst hpre hsuf
  rw [g2]; simp

theorem trim_plain {s : Bytes} (hl : s.length < npos) (h : ∀ c ∈ s, 32 ≤ c.toNat) (ht : Trimmed s) :
    trim whitespace s = .ok s := by
  have key : ∀ c ∈ s, c ≠ 32 → c ∉ whitespace := by
    intro c hc hne hw
    have h1 := h c hc
    have : ∀ w ∈ whitespace, w = 32 ∨ w.toNat < 32 := by decide
    rcases this c hw with h2 | h2
    · exact hne h2
    · omega
  refine trim_id hl (fun c hc => ?_) (fun c hc => ?_)
  · exact key c (List.mem_of_mem_head? hc) fun h => ht.1 (h ▸ hc)
  · exact key c (List.mem_of_mem_getLast? hc) fun h => ht.2 (h ▸ hc)

theorem trim_digits {s : Bytes} (hl : s.length < npos) (h : ∀ c ∈ s, ∃ n < 16, c = digitLower n) :
    trim whitespace s = .ok s := by
  have key : ∀ c ∈ s, 32 < c.toNat := by
    intro c hc
    obtain ⟨n, hn, rfl⟩ := h c hc
    exact (digit_props n hn).1
  refine trim_plain hl (fun c hc => Nat.le_of_lt (key c hc)) ⟨fun h => ?_, fun h => ?_⟩
  · exact absurd (key _ (List.mem_of_mem_head? h)) (by decide)
  · exact absurd (key _ (List.mem_of_mem_getLast? h)) (by decide)

/-- What is shown of a value is plain and not changed by trimming. -/
theorem shown_props {v : Value} (h : v.Valid) : Plain (v.shown program) ∧
    trim whitespace (v.shown program) = .ok (v.shown program) := by
  have hdec : ∀ n, n < 2 ^ 64 → Plain (dec n) ∧ trim whitespace (dec n) = .ok (dec n) := by
    intro n hn
    refine ⟨Plain.dec n, trim_digits ?_ fun _ h => dec_mem h⟩
    have := dec_length_le 20 n (by omega) (by omega)
    unfold npos; omega
  cases v with
  | text t =>
    refine ⟨Plain.of_plain h.1.1, trim_plain ?_ (fun c hc => (plain_mem h.1.1 hc).1) h.2⟩
    have := h.1.2
    unfold Text.units at this
    show t.chars.length < npos
    unfold npos; omega
  | bytes b =>
    refine ⟨Plain.hex b, trim_digits ?_ fun _ h => hexText_mem h⟩
    have : b.length < 2 ^ 16 := h
    show (hexText b).length < npos
    rw [← bin2hex_hexText, Props.C08_hexdump_length]
    unfold npos; omega
  | bool b => cases b <;> exact ⟨⟨by decide, by decide⟩, by decide⟩
  | dword n =>
    refine hdec _ ?_
    show bigEndian (leBytes 4 n) < _
    obtain ⟨a, b, c, d, e⟩ := length_four (show (leBytes 4 n).length = 4 from leBytes_length ..)
    rw [e]
    have h1 := a.toNat_lt
    have h2 := b.toNat_lt
    have h3 := c.toNat_lt
    have h4 := d.toNat_lt
    simp [bigEndian]
    omega
  | qword n => exact hdec n h
  | word n => exact hdec n (Nat.lt_trans (show n < 2 ^ 16 from h) (by decide))

/-! ## Members and elements -/

theorem member {k t : Bytes} {v : JVal} (hk : jsonPlain k = true) (h : JReads t v) :
    JMember.Reads { key := k, val := t } (k, v) :=
  ⟨rfl, hk, rfl, ⟨[], [], rfl, rfl, rfl⟩, h⟩

theorem member_gap {k t : Bytes} {v : JVal} (hk : jsonPlain k = true) (h : JReads t v) :
    JMember.Reads { key := k, mid := b!": ", val := t } (k, v) :=
  ⟨rfl, hk, rfl, ⟨[], b!" ", rfl, rfl, rfl⟩, h⟩

theorem member_text {k s : Bytes} (hk : jsonPlain k = true) (h : Plain s) :
    JMember.Reads { key := k, val := b!"\"" ++ s ++ b!"\"" } (k, .text s) :=
  member hk (jclosed_text h.1).reads

theorem member_nat {k : Bytes} (n : Nat) (hk : jsonPlain k = true) : JMember.Reads { key := k, val := dec n } (k, .nat n) :=
  member hk (jreads_nat n)

theorem leaf {n s : Bytes} (hn : isName n = true) (h : Plain s) : XReads (elemText n s) [.leaf n s] :=
  xreads_leaf hn h.2

/-- The text of an object is read as `j` and `x`. -/
structure Displays (obj : Obj) (j : JVal) (x : XVal) : Prop where
  json : ∃ t, obj.toJson = .ok t ∧ JClosed t j
  xml : ∃ t, obj.toXml = .ok t ∧ XReads t [x]

theorem commas_eq (ts : List Bytes) : commas ts = itemsText ts := by
  match ts with
  | [] => rfl
  | [x] => rfl
  | x :: y :: rest => rw [commas, itemsText, commas_eq (y :: rest)]

theorem erase_hex (b : Bytes) : erasenulls (hexText b) = hexText b := by
  refine Propset.erasenulls_id fun h => ?_
  obtain ⟨n, hn, e⟩ := hexText_mem h
  have := (digit_props n hn).1
  rw [← e] at this
  exact absurd this (by decide)

theorem name_header : ASFTypeToString .ASF_Header_Object = b!"ASF_Header_Object" := by decide +kernel
theorem name_fileProps : ASFTypeToString .ASF_File_Properties_Object = b!"ASF_File_Properties_Object" := by decide +kernel
theorem name_streamProps : ASFTypeToString .ASF_Stream_Properties_Object = b!"ASF_Stream_Properties_Object" := by
  decide +kernel
theorem name_headerExt : ASFTypeToString .ASF_Header_Extension_Object = b!"ASF_Header_Extension_Object" := by decide +kernel
theorem name_extContent : ASFTypeToString .ASF_Extended_Content_Description_Object =
    b!"ASF_Extended_Content_Description_Object" := by decide +kernel
theorem name_codecList : ASFTypeToString .ASF_Codec_List_Object = b!"ASF_Codec_List_Object" := by decide +kernel

set_option maxRecDepth 4000

/-- Compares texts piece by piece. -/
macro "texts" : tactic => `(tactic| simp only [objText, membersText, JMember.text, elemText, jsonHead, xmlHead, typeName_eq,
  bin2hex_hexText, erase_hex, name_header, name_fileProps, name_streamProps, name_headerExt, name_extContent,
  name_codecList, commas_eq, arrText, List.append_assoc, List.cons_append, List.nil_append])

theorem other_displays (id data : Bytes) :
    Displays (.unknown (typeOf id) data) ((Object.other id data).json program) ((Object.other id data).xml program) := by
  constructor
  · refine ⟨_, by rw [Obj.toJson], (jclosed_obj (.cons (member_text (k := b!"Type") (by decide) (Plain.typeName id)) <|
      .cons (member_text (k := b!"Data") (by decide) (Plain.hex data)) .nil)).of ?_ (by rw [Object.json])⟩
    texts
  · refine ⟨_, by rw [Obj.toXml], (xreads_elem (n := b!"ASFObject") (by decide)
      ((leaf (n := b!"Type") (by decide) (Plain.typeName id)).append
      (leaf (n := b!"Data") (by decide) (Plain.hex data)))).of ?_ (by rw [Object.xml]; rfl)⟩
    texts

theorem header_displays (size number : Nat) (a b : UInt8) :
    Displays (.header size number a b) (.obj [(b!"Type", .text b!"ASF_Header_Object"), (b!"Number", .nat number),
      (b!"Alignment", .nat a.toNat), (b!"Architecture", .nat b.toNat)])
      (.elem b!"ASFObject" [.leaf b!"Type" b!"ASF_Header_Object", .leaf b!"Number" (dec number),
      .leaf b!"Alignment" (dec a.toNat), .leaf b!"Architecture" (dec b.toNat)]) := by
  constructor
  · refine ⟨_, by rw [Obj.toJson], (jclosed_obj (.cons (member_text (k := b!"Type") (s := b!"ASF_Header_Object")
      (by decide) ⟨by decide, by decide⟩) <|
      .cons (member_nat (k := b!"Number") number (by decide)) <| .cons (member_nat (k := b!"Alignment") _ (by decide)) <|
      .cons (member_nat (k := b!"Architecture") _ (by decide)) .nil)).of ?_ rfl⟩
    texts
  · refine ⟨_, by rw [Obj.toXml], (xreads_elem (n := b!"ASFObject") (by decide)
      ((leaf (n := b!"Type") (s := b!"ASF_Header_Object") (by decide) ⟨by decide, by decide⟩).append <|
      (leaf (n := b!"Number") (by decide) (Plain.dec _)).append <|
      (leaf (n := b!"Alignment") (by decide) (Plain.dec _)).append
      (leaf (n := b!"Architecture") (by decide) (Plain.dec _)))).of ?_ rfl⟩
    texts

theorem fileProps_displays (f : FileInfo) (data : Bytes) :
    Displays (.fileProps data (FileProps.mk f.fileId f.size f.creation f.packets f.play f.send f.preroll f.flags f.minPacket
      f.maxPacket f.maxBitrate))
      ((Object.fileProps f).json program) ((Object.fileProps f).xml program) := by
  constructor
  · refine ⟨_, by rw [Obj.toJson], (jclosed_obj (.cons (member_text (k := b!"Type") (s := b!"ASF_File_Properties_Object")
      (by decide) ⟨by decide, by decide⟩) <|
      .cons (member_text (k := b!"file_id") (by decide) (Plain.hex f.fileId)) <|
      .cons (member_nat (k := b!"file_size") f.size (by decide)) <|
      .cons (member_nat (k := b!"creation") f.creation (by decide)) <|
      .cons (member_nat (k := b!"dp_count") f.packets (by decide)) <|
      .cons (member_nat (k := b!"play_duration") f.play (by decide)) <|
      .cons (member_nat (k := b!"send_duration") f.send (by decide)) <|
      .cons (member_nat (k := b!"preroll") f.preroll (by decide)) <|
      .cons (member_nat (k := b!"flags") f.flags (by decide)) <|
      .cons (member_nat (k := b!"min_dp_size") f.minPacket (by decide)) <|
      .cons (member_nat (k := b!"max_dp_size") f.maxPacket (by decide)) <|
      .cons (member_nat (k := b!"max_bitrate") f.maxBitrate (by decide)) .nil)).of ?_ (by rw [Object.json]; rfl)⟩
    unfold FileProps.json
    texts
  · refine ⟨_, by rw [Obj.toXml], (xreads_elem (n := b!"ASFObject") (by decide)
      ((leaf (n := b!"Type") (s := b!"ASF_File_Properties_Object") (by decide) ⟨by decide, by decide⟩).append <|
      (leaf (n := b!"file_id") (by decide) (Plain.hex f.fileId)).append <|
      (leaf (n := b!"file_size") (by decide) (Plain.dec f.size)).append <|
      (leaf (n := b!"creation") (by decide) (Plain.dec f.creation)).append <|
      (leaf (n := b!"dp_count") (by decide) (Plain.dec f.packets)).append <|
      (leaf (n := b!"play_duration") (by decide) (Plain.dec f.play)).append <|
      (leaf (n := b!"send_duration") (by decide) (Plain.dec f.send)).append <|
      (leaf (n := b!"preroll") (by decide) (Plain.dec f.preroll)).append <|
      (leaf (n := b!"flags") (by decide) (Plain.dec f.flags)).append <|
      (leaf (n := b!"min_dp_size") (by decide) (Plain.dec f.minPacket)).append <|
      (leaf (n := b!"max_dp_size") (by decide) (Plain.dec f.maxPacket)).append <|
      (leaf (n := b!"max_bitrate") (by decide) (Plain.dec f.maxBitrate)))).of ?_ (by rw [Object.xml]; rfl)⟩
    unfold FileProps.xml
    texts

theorem streamProps_displays (s : StreamInfo) (data : Bytes) :
    Displays (.streamProps data (StreamProps.mk (typeOf s.streamType) (typeOf s.errorType) s.timeOffset s.typeData.length
      s.errorData.length s.flags s.reserved s.typeData s.errorData))
      ((Object.streamProps s).json program) ((Object.streamProps s).xml program) := by
  constructor
  · refine ⟨_, by rw [Obj.toJson], (jclosed_obj (.cons (member_text (k := b!"Type") (s := b!"ASF_Stream_Properties_Object")
      (by decide) ⟨by decide, by decide⟩) <|
      .cons (member_text (k := b!"stream_type") (by decide) (Plain.typeName s.streamType)) <|
      .cons (member_text (k := b!"error_correction_type") (by decide) (Plain.typeName s.errorType)) <|
      .cons (member_nat (k := b!"time_offset") s.timeOffset (by decide)) <|
      .cons (member_nat (k := b!"type_specific_data_length") s.typeData.length (by decide)) <|
      .cons (member_nat (k := b!"error_correction_data_length") s.errorData.length (by decide)) <|
      .cons (member_nat (k := b!"flags") s.flags (by decide)) <|
      .cons (member_nat (k := b!"reserved") s.reserved (by decide)) <|
      .cons (member_text (k := b!"type_specific_data") (by decide) (Plain.hex s.typeData)) <|
      .cons (member_text (k := b!"error_correction_data") (by decide) (Plain.hex s.errorData)) .nil)).of ?_
      (by rw [Object.json]; rfl)⟩
    unfold StreamProps.json
    texts
  · refine ⟨_, by rw [Obj.toXml], (xreads_elem (n := b!"ASFObject") (by decide)
      ((leaf (n := b!"Type") (s := b!"ASF_Stream_Properties_Object") (by decide) ⟨by decide, by decide⟩).append <|
      (leaf (n := b!"stream_type") (by decide) (Plain.typeName s.streamType)).append <|
      (leaf (n := b!"error_correction_type") (by decide) (Plain.typeName s.errorType)).append <|
      (leaf (n := b!"time_offset") (by decide) (Plain.dec s.timeOffset)).append <|
      (leaf (n := b!"type_specific_data_length") (by decide) (Plain.dec s.typeData.length)).append <|
      (leaf (n := b!"error_correction_data_length") (by decide) (Plain.dec s.errorData.length)).append <|
      (leaf (n := b!"flags") (by decide) (Plain.dec s.flags)).append <|
      (leaf (n := b!"reserved") (by decide) (Plain.dec s.reserved)).append <|
      (leaf (n := b!"type_specific_data") (by decide) (Plain.hex s.typeData)).append <|
      (leaf (n := b!"error_correction_data") (by decide) (Plain.hex s.errorData)))).of ?_ (by rw [Object.xml]; rfl)⟩
    unfold StreamProps.xml
    texts

theorem contentDesc_displays {t a c d r : Text} (ht : t.Valid) (ha : a.Valid) (hc : c.Valid) (hd : d.Valid) (hr : r.Valid)
    (data : Bytes) : Displays (.contentDesc data
        { title := t.chars, author := a.chars, copyright := c.chars, description := d.chars, rating := r.chars })
      ((Object.contentDesc t a c d r).json program) ((Object.contentDesc t a c d r).xml program) := by
  constructor
  · refine ⟨_, by rw [Obj.toJson], (jclosed_obj (.cons (member_text (k := b!"Type") (s := b!"ASF_Header_Extension_Object")
      (by decide) ⟨by decide, by decide⟩) <|
      .cons (member_text (k := b!"title") (by decide) (Plain.of_plain ht.1)) <|
      .cons (member_text (k := b!"author") (by decide) (Plain.of_plain ha.1)) <|
      .cons (member_text (k := b!"copyright") (by decide) (Plain.of_plain hc.1)) <|
      .cons (member_text (k := b!"description") (by decide) (Plain.of_plain hd.1)) <|
      .cons (member_text (k := b!"rating") (by decide) (Plain.of_plain hr.1)) .nil)).of ?_ (by rw [Object.json]; rfl)⟩
    unfold ContentDescription.json
    texts
  · refine ⟨_, by rw [Obj.toXml], (xreads_elem (n := b!"ASFObject") (by decide)
      ((leaf (n := b!"Type") (s := b!"ASF_Header_Extension_Object") (by decide) ⟨by decide, by decide⟩).append <|
      (leaf (n := b!"title") (by decide) (Plain.of_plain ht.1)).append <|
      (leaf (n := b!"author") (by decide) (Plain.of_plain ha.1)).append <|
      (leaf (n := b!"copyright") (by decide) (Plain.of_plain hc.1)).append <|
      (leaf (n := b!"description") (by decide) (Plain.of_plain hd.1)).append <|
      (leaf (n := b!"rating") (by decide) (Plain.of_plain hr.1)))).of ?_ (by rw [Object.xml]; rfl)⟩
    unfold ContentDescription.xml
    texts

/-- Members one after the other are items separated by commas. -/
theorem membersText_eq (ms : List JMember) : membersText ms = itemsText (ms.map JMember.text) := by
  match ms with
  | [] => rfl
  | [x] => rfl
  | x :: y :: rest => rw [membersText, List.map_cons, List.map_cons, itemsText, membersText_eq (y :: rest), List.map_cons]

theorem pointwise_map {α β γ : Type} {R : β → γ → Prop} {f : α → β} {g : α → γ} {l : List α} (h : ∀ a ∈ l, R (f a) (g a)) :
    Pointwise R (l.map f) (l.map g) := by
  induction l with
  | nil => exact .nil
  | cons a l ih => exact .cons (h a (by simp)) (ih fun b hb => h b (by simp [hb]))

theorem mapRes_map {α β γ : Type} {f : β → Res γ} {g : α → β} {k : α → γ} {l : List α} (h : ∀ a ∈ l, f (g a) = .ok (k a)) :
    mapRes f (l.map g) = .ok (l.map k) := by
  induction l with
  | nil => rfl
  | cons a l ih =>
    rw [List.map_cons, mapRes, h a (by simp), Res.bind_ok, ih fun b hb => h b (by simp [hb])]
    rfl

theorem name_trim {a : Attr} (h : a.Valid) : trim whitespace a.name.chars = .ok a.name.chars := by
  refine trim_plain ?_ (fun c hc => (plain_mem h.1.1 hc).1) h.2.1
  have := h.1.2
  unfold Text.units at this
  unfold npos; omega

theorem extContent_displays {as : List Attr} (hne : as ≠ []) (ha : ∀ a ∈ as, a.Valid) (data : Bytes) :
    Displays (.extContent data as.length (as.map keptAttr)) ((Object.extContent as).json program)
      ((Object.extContent as).xml program) := by
  have hpos : (as.map keptAttr).length > 0 := by
    cases as with
    | nil => exact absurd rfl hne
    | cons a as => simp
  constructor
  · have e := mapRes_map (f := ContentDescriptor.json) (g := keptAttr)
      (k := fun a => (JMember.mk [] a.name.chars b!":" (b!"\"" ++ a.value.shown program ++ b!"\"")).text) (l := as) (by
      intro a h
      have h1 := name_trim (ha a h)
      have h2 := (shown_props (ha a h).2.2).2
      unfold ContentDescriptor.json
      show (trim whitespace a.name.chars >>= fun n => trim whitespace (a.value.shown program) >>= _) = _
      rw [h1, Res.bind_ok, h2, Res.bind_ok]
      simp [JMember.text])
    refine ⟨_, by rw [Obj.toJson, e, Res.bind_ok, if_pos hpos], (jclosed_obj (.cons (member_text (k := b!"Type")
      (s := b!"ASF_Extended_Content_Description_Object") (by decide) ⟨by decide, by decide⟩) <|
      .cons (member_nat (k := b!"content_descriptors_count") _ (by decide)) <|
      .cons (member_gap (k := b!"attributes") (by decide) (jclosed_obj (pointwise_map fun a h => member_text (Plain.of_plain (ha a h).1.1).1
          (shown_props (ha a h).2.2).1)).reads) .nil)).of ?_ (by rw [Object.json])⟩
    texts
    simp only [membersText_eq, List.map_map, Function.comp_def, JMember.text, List.append_assoc, List.cons_append,
      List.nil_append]
  · have e := mapRes_map (f := ContentDescriptor.xml) (g := keptAttr)
      (k := fun a => elemText b!"Name" a.name.chars ++ elemText b!"Value" (a.value.shown program)) (l := as) (by
      intro a h
      have h1 := name_trim (ha a h)
      have h2 := (shown_props (ha a h).2.2).2
      unfold ContentDescriptor.xml
      show (trim whitespace a.name.chars >>= fun n => trim whitespace (a.value.shown program) >>= _) = _
      rw [h1, Res.bind_ok, h2, Res.bind_ok]
      simp [elemText])
    have hx : ∀ l : List Attr, (∀ a ∈ l, a.Valid) → XReads (l.map fun a =>
        elemText b!"Name" a.name.chars ++ elemText b!"Value" (a.value.shown program)).flatten
        (l.flatMap fun a => [.leaf b!"Name" a.name.chars, .leaf b!"Value" (a.value.shown program)]) := by
      intro l
      induction l with
      | nil => intro _; exact xreads_nil
      | cons a l ih =>
        intro h
        rw [List.map_cons, List.flatten_cons, List.flatMap_cons]
        exact ((leaf (by decide) (Plain.of_plain (h a (by simp)).1.1)).append
          (leaf (by decide) (shown_props (h a (by simp)).2.2).1)).append (ih fun b hb => h b (by simp [hb]))
    refine ⟨_, by rw [Obj.toXml, e, Res.bind_ok, if_pos hpos], (xreads_elem (n := b!"ASFObject") (by decide)
      ((leaf (n := b!"Type") (s := b!"ASF_Extended_Content_Description_Object") (by decide) ⟨by decide, by decide⟩).append <|
      (leaf (n := b!"content_descriptors_count") (by decide) (Plain.dec as.length)).append <|
      xreads_elem (n := b!"attributes") (by decide) (hx as ha))).of ?_ (by rw [Object.xml]; rfl)⟩
    texts

theorem codecType_eq (c : Codec) : (keptCodec c).typeStr = codecType c.type := by
  unfold CodecEntry.typeStr codecType
  show (if c.type = 1 then _ else if c.type = 2 then _ else if c.type = 0xFFFF then _ else _) = _
  by_cases h1 : c.type = 1
  · rw [h1]; rfl
  by_cases h2 : c.type = 2
  · rw [h2]; rfl
  by_cases h3 : c.type = 0xFFFF
  · rw [h3]; rfl
  rw [if_neg h1, if_neg h2, if_neg h3]
  simp only [nameOf]
  rw [if_neg fun h => h1 h.symm, if_neg fun h => h2 h.symm, if_neg fun h => h3 h.symm]

theorem codecType_plain (n : Nat) : Plain (codecType n) := by
  unfold codecType
  simp only [nameOf]
  repeat' split
  all_goals exact ⟨by decide, by decide⟩

theorem codecList_displays {cs : List Codec} (hne : cs ≠ []) (hc : ∀ c ∈ cs, c.Valid) (id data : Bytes) :
    Displays (.codecList data (typeOf id) cs.length (cs.map keptCodec)) ((Object.codecList id cs).json program)
      ((Object.codecList id cs).xml program) := by
  have hpos : (cs.map keptCodec).length > 0 := by
    cases cs with
    | nil => exact absurd rfl hne
    | cons a as => simp
  constructor
  · have hj : Pointwise JReads ((cs.map keptCodec).map CodecEntry.json) (cs.map Codec.json) := by
      rw [List.map_map]
      refine pointwise_map fun c h => JClosed.reads ?_
      obtain ⟨_, v2, v3, _⟩ := hc c h
      refine (jclosed_obj (.cons (member_text (k := b!"type") (by decide) (codecType_plain c.type)) <|
        .cons (member_text (k := b!"name") (by decide) (Plain.of_plain v2.1)) <|
        .cons (member_text (k := b!"description") (by decide) (Plain.of_plain v3.1)) <|
        .cons (member_text (k := b!"info") (by decide) (Plain.hex c.info)) .nil)).of ?_ rfl
      rw [← codecType_eq]
      unfold Function.comp CodecEntry.json
      texts
      rfl
    refine ⟨_, by rw [Obj.toJson, if_pos hpos], (jclosed_obj (.cons (member_text (k := b!"Type")
      (s := b!"ASF_Codec_List_Object") (by decide) ⟨by decide, by decide⟩) <|
      .cons (member_text (k := b!"codec_id") (by decide) (Plain.typeName id)) <|
      .cons (member_text (k := b!"codec_entries_count") (by decide) (Plain.dec cs.length)) <|
      .cons (member_gap (k := b!"codecs") (by decide) (jclosed_arr hj).reads) .nil)).of ?_ (by rw [Object.json])⟩
    texts
  · have hx : Pointwise (fun t v => XReads t [v]) ((cs.map keptCodec).map CodecEntry.xml) (cs.map Codec.xml) := by
      rw [List.map_map]
      refine pointwise_map fun c h => ?_
      obtain ⟨_, v2, v3, _⟩ := hc c h
      refine (xreads_elem (n := b!"codec") (by decide)
        ((leaf (n := b!"type") (by decide) (codecType_plain c.type)).append <|
        (leaf (n := b!"name") (by decide) (Plain.of_plain v2.1)).append <|
        (leaf (n := b!"description") (by decide) (Plain.of_plain v3.1)).append <|
        (leaf (n := b!"info") (by decide) (Plain.hex c.info)))).of ?_ rfl
      rw [← codecType_eq]
      unfold Function.comp CodecEntry.xml
      texts
      rfl
    refine ⟨_, by rw [Obj.toXml, if_pos hpos], (xreads_elem (n := b!"ASFObject") (by decide)
      ((leaf (n := b!"Type") (s := b!"ASF_Codec_List_Object") (by decide) ⟨by decide, by decide⟩).append <|
      (leaf (n := b!"codec_id") (by decide) (Plain.typeName id)).append <|
      (leaf (n := b!"codec_entries_count") (by decide) (Plain.dec cs.length)).append <|
      xreads_elem (n := b!"codecs") (by decide) (xreads_flatten hx))).of ?_ (by rw [Object.xml]; rfl)⟩
    texts

/-! ## Lists of objects -/

/-- What the program learns from an object about the file. -/
def noteInfo (info : ExtInfo) : Object → ExtInfo
  | .codecList _ cs => codecInfo info (cs.map keptCodec)
  | _ => info

/-- What the program keeps of an object: its data, its text and, for a codec list, the codecs. -/
structure Shows (o : Object) (obj : Obj) : Prop where
  data : obj.data = o.data
  displays : Displays obj (o.json program) (o.xml program)
  codecs : ∀ info : ExtInfo, objInfo info obj = noteInfo info o

theorem shows_jsons {os : List Object} {objs : List Obj} (h : Pointwise Shows os objs) :
    ∃ ts, Obj.toJsons objs = .ok ts ∧ Pointwise JReads ts (jsons program os) := by
  induction h with
  | nil => exact ⟨[], rfl, .nil⟩
  | cons h _ ih =>
    obtain ⟨t, h1, h2⟩ := h.displays.json
    obtain ⟨ts, h3, h4⟩ := ih
    exact ⟨t :: ts, by rw [Obj.toJsons, h1, Res.bind_ok, h3]; rfl, .cons h2.reads h4⟩

theorem shows_xmls {os : List Object} {objs : List Obj} (h : Pointwise Shows os objs) :
    ∃ ts, Obj.toXmls objs = .ok ts ∧ Pointwise (fun t v => XReads t [v]) ts (xmls program os) := by
  induction h with
  | nil => exact ⟨[], rfl, .nil⟩
  | cons h _ ih =>
    obtain ⟨t, h1, h2⟩ := h.displays.xml
    obtain ⟨ts, h3, h4⟩ := ih
    exact ⟨t :: ts, by rw [Obj.toXmls, h1, Res.bind_ok, h3]; rfl, .cons h2 h4⟩

theorem pointwise_length {α β : Type} {R : α → β → Prop} {as : List α} {bs : List β} (h : Pointwise R as bs) :
    as.length = bs.length := by
  induction h with
  | nil => rfl
  | cons _ _ ih => simp [ih]

theorem headerExt_displays {cs : List Object} {objs : List Obj} (h : Pointwise Shows cs objs) (clock data : Bytes)
    (n : Nat) : Displays (.headerExt data (typeOf clock) n (stored cs).length (stored cs) objs)
      ((Object.headerExt clock n cs).json program) ((Object.headerExt clock n cs).xml program) := by
  obtain ⟨js, hj1, hj2⟩ := shows_jsons h
  obtain ⟨xs, hx1, hx2⟩ := shows_xmls h
  have hl := pointwise_length h
  cases cs with
  | nil =>
    have : objs = [] := List.eq_nil_of_length_eq_zero hl.symm
    subst this
    constructor
    · refine ⟨_, by rw [Obj.toJson, hj1, Res.bind_ok, if_neg (by simp)], (jclosed_obj (.cons (member_text (k := b!"Type")
        (s := b!"ASF_Header_Extension_Object") (by decide) ⟨by decide, by decide⟩) <|
        .cons (member_text (k := b!"clock_type") (by decide) (Plain.typeName clock)) <|
        .cons (member_text (k := b!"clock_size") (by decide) (Plain.dec n)) <|
        .cons (member_text (k := b!"header_extension_data_size") (by decide) (Plain.dec (stored []).length)) <|
        .cons (member_text (k := b!"header_extension_data") (s := []) (by decide) ⟨rfl, rfl⟩) .nil)).of ?_
        (by rw [Object.json]; rfl)⟩
      rw [show bin2hex (stored []) = [] from rfl]
      texts
    · refine ⟨_, by rw [Obj.toXml, hx1, Res.bind_ok, if_neg (by simp)], (xreads_elem (n := b!"ASFObject") (by decide)
        ((leaf (n := b!"Type") (s := b!"ASF_Header_Extension_Object") (by decide) ⟨by decide, by decide⟩).append <|
        (leaf (n := b!"clock_type") (by decide) (Plain.typeName clock)).append <|
        (leaf (n := b!"clock_size") (by decide) (Plain.dec n)).append <|
        (leaf (n := b!"header_extension_data_size") (by decide) (Plain.dec (stored []).length)).append <|
        leaf (n := b!"header_extension_data") (s := []) (by decide) ⟨rfl, rfl⟩)).of ?_ (by rw [Object.xml]; rfl)⟩
      rw [show bin2hex (stored []) = [] from rfl]
      texts
  | cons c cs =>
    have hpos : objs.length > 0 := by rw [← hl]; simp
    constructor
    · refine ⟨_, by rw [Obj.toJson, hj1, Res.bind_ok, if_pos hpos], (jclosed_obj (.cons (member_text (k := b!"Type")
        (s := b!"ASF_Header_Extension_Object") (by decide) ⟨by decide, by decide⟩) <|
        .cons (member_text (k := b!"clock_type") (by decide) (Plain.typeName clock)) <|
        .cons (member_text (k := b!"clock_size") (by decide) (Plain.dec n)) <|
        .cons (member_text (k := b!"header_extension_data_size") (by decide) (Plain.dec (stored (c :: cs)).length)) <|
        .cons (member_gap (k := b!"children") (by decide) (jclosed_arr hj2).reads) .nil)).of ?_ (by rw [Object.json]; rfl)⟩
      texts
    · refine ⟨_, by rw [Obj.toXml, hx1, Res.bind_ok, if_pos hpos], (xreads_elem (n := b!"ASFObject") (by decide)
        ((leaf (n := b!"Type") (s := b!"ASF_Header_Extension_Object") (by decide) ⟨by decide, by decide⟩).append <|
        (leaf (n := b!"clock_type") (by decide) (Plain.typeName clock)).append <|
        (leaf (n := b!"clock_size") (by decide) (Plain.dec n)).append <|
        (leaf (n := b!"header_extension_data_size") (by decide) (Plain.dec (stored (c :: cs)).length)).append <|
        xreads_elem (n := b!"children") (by decide) (xreads_flatten hx2))).of ?_ (by rw [Object.xml]; rfl)⟩
      texts

end Fileid.Asf
