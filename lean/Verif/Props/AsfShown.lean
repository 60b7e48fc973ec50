import Verif.Lemmas.AsfFile
import Verif.Props.Asf
import Verif.Props.Office

/-!
# C85-C87: the kind of an ASF file, what is shown for it, and the platforms

The files are those of the specification: a header with valid objects and anything behind it.
-/

namespace Fileid.Props

open Common Spec Spec.Asf Fileid.Asf

/-! ## What the program shows, and for which kind -/

/-- Every valid file gives one result, of one of the three kinds, and the documents show all objects in order the way
the program understands the format. -/
theorem C86_shown_as_understood_partial (room fuel : Nat) (objects : List Object) (rest : Bytes) (hv : AllValid objects)
    (hw : (file objects []).length ≤ 65536) (hl : (file objects rest).length < 2 ^ 32) (hr : (file objects rest).length ≤ room)
    (hf : (file objects rest).length < fuel) :
    ∃ item, Detailer Abi.windows room fuel (some (file objects rest)) ((file objects rest).take 65536) = .ok [item] ∧
      (item.info.Extension, item.info.Name) ∈ kindNames ∧
      item.text = item.info.Extension ++ b!"\t\t0" ∧ item.csv = item.info.Extension ++ b!",,0" ∧
      jsonDocument item.json = some (fileJson program item.info.Extension objects).events ∧
      xmlDocument item.xml = some (fileXml program item.info.Extension objects).events := by
  obtain ⟨objs, h1, h2⟩ := file_spec hv hw hl hr hf
  have hk := known_infoOf objects known_asf
  obtain ⟨item, g1, g2, g3, g4, g5, g6⟩ := item_spec h1 (30 + (stored objects).length) hk
  unfold asfInfo at g1 g2
  rw [g1] at h2
  refine ⟨item, h2, ?_, ?_, ?_, ?_, ?_⟩
  · rw [g2]
    obtain ⟨e, he, h⟩ := hk
    unfold asfInfo at h
    rw [h]
    exact he
  all_goals rw [g2]; assumption

/-- C86 for the objects that the program understands rightly: all objects are shown, in order and nested as they are
stored, with every field, and the documents are well formed. -/
theorem C86_shown_partial (room fuel : Nat) (objects : List Object) (rest : Bytes) (hv : AllValid objects)
    (ha : AllAgree objects) (hw : (file objects []).length ≤ 65536) (hl : (file objects rest).length < 2 ^ 32) (hr : (file objects rest).length ≤ room)
    (hf : (file objects rest).length < fuel) :
    ∃ item, Detailer Abi.windows room fuel (some (file objects rest)) ((file objects rest).take 65536) = .ok [item] ∧
      jsonDocument item.json = some (fileJson right item.info.Extension objects).events ∧
      xmlDocument item.xml = some (fileXml right item.info.Extension objects).events := by
  obtain ⟨item, h1, _, _, _, h2, h3⟩ := C86_shown_as_understood_partial room fuel objects rest hv hw hl hr hf
  obtain ⟨e1, e2⟩ := jsons_agree objects ha
  refine ⟨item, h1, ?_, ?_⟩
  · rw [h2]; unfold fileJson; rw [e1]
  · rw [h3]; unfold fileXml; rw [e2]

/-- An object of another kind in a header extension, an attribute and a codec list. -/
def sampleObjects : List Object := [
  .headerExt (List.replicate 16 7) 6 [.other (List.replicate 16 3) b!"abc"],
  .extContent [⟨⟨b!"WM/Year", 1⟩, .text ⟨b!"1999", 1⟩⟩, ⟨⟨b!"n", 0⟩, .word 7⟩],
  .codecList (List.replicate 16 5) [⟨2, ⟨b!"Windows Media Audio 9", 1⟩, ⟨b!"2 channels", 0⟩, [0x61, 1]⟩]]

theorem sampleObjects_valid : AllValid sampleObjects ∧ AllAgree sampleObjects ∧ (file sampleObjects b!"data").length = 293 := by
  refine ⟨?_, ?_, by decide +kernel⟩
  · unfold sampleObjects AllValid AllValid AllValid AllValid
    refine ⟨?_, ?_, ?_, trivial⟩
    · unfold Object.Valid AllValid AllValid Object.Valid
      exact ⟨by decide, by decide, ⟨by decide, by decide +kernel⟩, trivial⟩
    · unfold Object.Valid
      refine ⟨by simp, by decide, ?_⟩
      intro a ha
      simp only [List.mem_cons, List.not_mem_nil, or_false] at ha
      rcases ha with rfl | rfl
      · exact ⟨⟨by decide, by decide⟩, ⟨by decide, by decide⟩, ⟨by decide, by decide⟩, ⟨by decide, by decide⟩⟩
      · exact ⟨⟨by decide, by decide⟩, ⟨by decide, by decide⟩, show 7 < 2 ^ 16 by decide⟩
    · unfold Object.Valid
      refine ⟨by decide, by simp, ?_⟩
      intro c hc
      simp only [List.mem_cons, List.not_mem_nil, or_false] at hc
      subst hc
      exact ⟨by decide, ⟨by decide, by decide⟩, ⟨by decide, by decide⟩, by decide⟩
  · unfold sampleObjects AllAgree AllAgree AllAgree AllAgree
    refine ⟨?_, ?_, ?_, trivial⟩
    · unfold Object.Agrees AllAgree AllAgree Object.Agrees
      exact ⟨by decide +kernel, by decide +kernel, trivial⟩
    · unfold Object.Agrees
      intro a ha n h
      simp only [List.mem_cons, List.not_mem_nil, or_false] at ha
      rcases ha with rfl | rfl <;> cases h
    · unfold Object.Agrees
      decide +kernel

/-- The sample meets the hypotheses of `C86_shown_partial`. -/
example : ∃ item, Detailer Abi.windows 1000 1000 (some (file sampleObjects b!"data")) ((file sampleObjects b!"data").take 65536) =
    .ok [item] ∧ jsonDocument item.json = some (fileJson right item.info.Extension sampleObjects).events ∧
    xmlDocument item.xml = some (fileXml right item.info.Extension sampleObjects).events := by
  obtain ⟨h1, h2, h3⟩ := sampleObjects_valid
  exact C86_shown_partial 1000 1000 sampleObjects b!"data" h1 h2 (by decide +kernel) (by rw [h3]; decide) (by rw [h3]; decide) (by rw [h3]; decide)

/-! ## C86 is false otherwise -/

/-- Content descriptions are shown under the name of header extensions: for no file with such an object in front does
the document show the objects. -/
theorem C86_content_description_wrong (room fuel : Nat) (t a c d r : Text) (objects : List Object) (rest : Bytes)
    (hv : AllValid (.contentDesc t a c d r :: objects))
    (hw : (file (.contentDesc t a c d r :: objects) []).length ≤ 65536)
    (hl : (file (.contentDesc t a c d r :: objects) rest).length < 2 ^ 32)
    (hr : (file (.contentDesc t a c d r :: objects) rest).length ≤ room)
    (hf : (file (.contentDesc t a c d r :: objects) rest).length < fuel) :
    ∃ item, Detailer Abi.windows room fuel (some (file (.contentDesc t a c d r :: objects) rest))
        ((file (.contentDesc t a c d r :: objects) rest).take 65536) = .ok [item] ∧
      jsonDocument item.json ≠ some (fileJson right item.info.Extension (.contentDesc t a c d r :: objects)).events := by
  obtain ⟨item, h1, _, _, _, h2, _⟩ := C86_shown_as_understood_partial room fuel _ rest hv hw hl hr hf
  refine ⟨item, h1, ?_⟩
  rw [h2]
  intro h
  simp [fileJson, jsons, JVal.events, JVal.memberEvents, JVal.itemEvents, JVal.text, Object.json, program, right] at h

/-- Attributes of type DWORD are shown with their bytes reversed. -/
theorem C86_dword_wrong (room fuel n : Nat) (name : Text) (objects : List Object) (rest : Bytes)
    (hn : bigEndian (leBytes 4 n) ≠ n) (hv : AllValid (.extContent [⟨name, .dword n⟩] :: objects))
    (hw : (file (.extContent [⟨name, .dword n⟩] :: objects) []).length ≤ 65536)
    (hl : (file (.extContent [⟨name, .dword n⟩] :: objects) rest).length < 2 ^ 32)
    (hr : (file (.extContent [⟨name, .dword n⟩] :: objects) rest).length ≤ room)
    (hf : (file (.extContent [⟨name, .dword n⟩] :: objects) rest).length < fuel) :
    ∃ item, Detailer Abi.windows room fuel (some (file (.extContent [⟨name, .dword n⟩] :: objects) rest))
        ((file (.extContent [⟨name, .dword n⟩] :: objects) rest).take 65536) = .ok [item] ∧
      jsonDocument item.json ≠ some (fileJson right item.info.Extension (.extContent [⟨name, .dword n⟩] :: objects)).events := by
  obtain ⟨item, h1, _, _, _, h2, _⟩ := C86_shown_as_understood_partial room fuel _ rest hv hw hl hr hf
  refine ⟨item, h1, ?_⟩
  rw [h2]
  intro h
  simp only [fileJson, jsons, JVal.events, JVal.memberEvents, JVal.itemEvents, JVal.text, Object.json, JVal.nat, List.map_cons,
    List.map_nil, Value.shown, List.cons_append, List.nil_append, List.append_assoc, Option.some.injEq, List.cons.injEq, true_and,
    JEvent.str.injEq] at h
  have e := h.1
  have inj : ∀ a b : Bytes, a.map UInt8.toNat = b.map UInt8.toNat → a = b := by
    intro a b h
    exact List.map_inj_right (fun x y h => UInt8.toNat_inj.1 h) |>.1 h
  have e := congrArg (readDigits 10 0) (inj _ _ e)
  rw [readDigits_dec, readDigits_dec] at e
  exact hn (Option.some.inj e)

example : bigEndian (leBytes 4 1) ≠ 1 ∧ AllValid [.extContent [⟨⟨b!"IsVBR", 1⟩, .dword 1⟩]] := by
  refine ⟨by decide, ?_⟩
  unfold AllValid AllValid Object.Valid
  refine ⟨⟨by simp, by decide, ?_⟩, trivial⟩
  intro a ha
  simp only [List.mem_cons, List.not_mem_nil, or_false] at ha
  subst ha
  exact ⟨⟨by decide, by decide⟩, ⟨by decide, by decide⟩, show 1 < 2 ^ 32 by decide⟩

example : AllValid [.contentDesc ⟨b!"A title", 1⟩ ⟨b!"An author", 1⟩ ⟨[], 0⟩ ⟨[], 1⟩ ⟨b!"3", 0⟩] := by
  unfold AllValid AllValid Object.Valid
  exact ⟨⟨⟨by decide, by decide⟩, ⟨by decide, by decide⟩, ⟨by decide, by decide⟩, ⟨by decide, by decide⟩, ⟨by decide, by decide⟩⟩, trivial⟩

/-- What is shown of a file when the header is not understood. -/
def bareJson : JVal :=
  .obj [(b!"extension", .text b!"asf"), (b!"name", .text b!"Advanced Systems Format (ASF)")]

/-- A header of more than 65536 bytes does not fit into the part of the file that is looked at: nothing of it is shown,
on any platform. -/
theorem C86_large_header_wrong (abi : Abi) (room fuel : Nat) (objects : List Object) (rest : Bytes)
    (hw : 65536 < (file objects []).length) (hl : (file objects rest).length < 2 ^ 32) :
    ∃ item, Detailer abi room (fuel + 1) (some (file objects rest)) ((file objects rest).take 65536) = .ok [item] ∧
      item.info.Extension = b!"asf" ∧ jsonDocument item.json = some bareJson.events := by
  have hid : headerId.length = 16 := ids_length (.ASF_Header_Object, headerId) (by simp [handled])
  have hlen := file_length objects rest
  have hfile : (file objects []).length =
      24 + (leBytes 4 objects.length ++ [1, 2] ++ stored objects).length := by
    unfold file
    rw [List.append_nil, frame_length hid]
  have hwin : ((file objects rest).take 65536).length = 65536 := by rw [List.length_take]; omega
  have hsize : At ((file objects rest).take 65536) 16
      (leBytes 8 (24 + (leBytes 4 objects.length ++ [1, 2] ++ stored objects).length)) := by
    refine ⟨headerId, ((leBytes 4 objects.length ++ [1, 2] ++ stored objects) ++ rest).take (65536 - 24), ?_, hid⟩
    have e : file objects rest = headerId ++ leBytes 8 (24 + (leBytes 4 objects.length ++ [1, 2] ++ stored objects).length) ++
        ((leBytes 4 objects.length ++ [1, 2] ++ stored objects) ++ rest) := by
      unfold file frame
      simp only [List.append_assoc]
    have e24 : ∀ k, (headerId ++ leBytes 8 k).length = 24 := by
      intro k; rw [List.length_append, leBytes_length, hid]
    rw [e, List.take_append, List.take_of_length_le (by rw [e24]; omega), e24]
  have hparse : Parse abi room (fuel + 1) ((file objects rest).take 65536) ((file objects rest).take 65536).length 0 =
      .ok none := by
    rw [Parse]
    rw [if_neg (by rw [hwin]; decide)]
    unfold rdRange
    rw [if_pos (by omega), Res.bind_ok]
    dsimp only
    rw [if_neg (by rw [hwin]; decide), show u32 (0 + 16) = 16 from rfl,
      llong_at hsize (by omega) (by omega), Res.bind_ok, if_pos]
    rw [hwin]
    show sub64 (u64 (24 + _)) 24 > 65536
    unfold sub64 u64
    omega
  unfold Detailer
  dsimp only
  rw [used_buffer hl, hparse, Res.bind_ok]
  exact ⟨_, rfl, rfl, by decide +kernel⟩

/-- Therefore such a file is not reported as what its codecs say. -/
theorem C85_large_header_wrong (abi : Abi) (room fuel : Nat) (objects : List Object) (rest : Bytes)
    (hk : kind objects ≠ b!"asf") (hw : 65536 < (file objects []).length) (hl : (file objects rest).length < 2 ^ 32) :
    ∃ item, Detailer abi room (fuel + 1) (some (file objects rest)) ((file objects rest).take 65536) = .ok [item] ∧
      item.info.Extension ≠ kind objects := by
  obtain ⟨item, h1, h2, _⟩ := C86_large_header_wrong abi room fuel objects rest hw hl
  exact ⟨item, h1, by rw [h2]; exact fun h => hk h.symm⟩

/-- The JSON document and whether it is well formed. -/
def jsonOf (r : Res (List Item)) : Res (List (Option (List JEvent))) := do
  let items ← r
  .ok (items.map fun i => jsonDocument i.json)

/-- The XML document. -/
def xmlOf (r : Res (List Item)) : Res (List (Option (List XEvent))) := do
  let items ← r
  .ok (items.map fun i => xmlDocument i.xml)

/-- An empty list of attributes or of codecs makes the JSON document malformed. -/
theorem C86_empty_attributes_wrong :
    jsonOf (Detailer Abi.windows 1000 2 (some (file [.extContent []] [])) (file [.extContent []] [])) = .ok [none] := by
  decide +kernel
theorem C86_empty_codecs_wrong :
    jsonOf (Detailer Abi.windows 1000 2 (some (file [.codecList (List.replicate 16 5) []] []))
      (file [.codecList (List.replicate 16 5) []] [])) = .ok [none] := by
  decide +kernel

/-- A title with a quotation mark makes the JSON document malformed, one with an ampersand the XML document. -/
theorem C86_quoted_title_wrong :
    jsonOf (Detailer Abi.windows 1000 2 (some (file [.contentDesc ⟨b!"\"x\"", 1⟩ ⟨[], 0⟩ ⟨[], 0⟩ ⟨[], 0⟩ ⟨[], 0⟩] []))
      (file [.contentDesc ⟨b!"\"x\"", 1⟩ ⟨[], 0⟩ ⟨[], 0⟩ ⟨[], 0⟩ ⟨[], 0⟩] [])) = .ok [none] ∧
    xmlOf (Detailer Abi.windows 1000 2 (some (file [.contentDesc ⟨b!"R&B", 1⟩ ⟨[], 0⟩ ⟨[], 0⟩ ⟨[], 0⟩ ⟨[], 0⟩] []))
      (file [.contentDesc ⟨b!"R&B", 1⟩ ⟨[], 0⟩ ⟨[], 0⟩ ⟨[], 0⟩ ⟨[], 0⟩] [])) = .ok [none] := by
  decide +kernel

/-! ## C85 the kind -/

theorem noCodecs_of {os : List Object} (hv : AllValid os) (h : codecs os = []) : NoCodecs os := by
  intro id cs hm
  have hv := allValid_mem hv _ hm
  unfold Object.Valid at hv
  unfold codecs at h
  rw [List.flatMap_eq_nil_iff] at h
  exact hv.2.1 (h _ hm)

theorem allValid_append {a b : List Object} (h : AllValid (a ++ b)) : AllValid a ∧ AllValid b := by
  induction a with
  | nil => exact ⟨by unfold AllValid; trivial, h⟩
  | cons o a ih =>
    rw [List.cons_append] at h
    unfold AllValid at h
    obtain ⟨h1, h2⟩ := ih h.2
    refine ⟨?_, h2⟩
    unfold AllValid
    exact ⟨h.1, h1⟩

/-- What the file is reported as. -/
theorem reported_as (room fuel : Nat) {objects : List Object} {rest : Bytes} (hv : AllValid objects)
    (hw : (file objects []).length ≤ 65536) (hl : (file objects rest).length < 2 ^ 32) (hr : (file objects rest).length ≤ room)
    (hf : (file objects rest).length < fuel) :
    ∃ item, Detailer Abi.windows room fuel (some (file objects rest)) ((file objects rest).take 65536) = .ok [item] ∧
      item.info.Extension = (infoOf asfInfo objects).Extension := by
  obtain ⟨objs, h1, h2⟩ := file_spec hv hw hl hr hf
  have hk := known_infoOf objects known_asf
  obtain ⟨item, g1, g2, _⟩ := item_spec h1 (30 + (stored objects).length) hk
  unfold asfInfo at g1
  rw [g1] at h2
  exact ⟨item, h2, by rw [g2]⟩

/-- C85 for files without a codec list. -/
theorem C85_kind_no_codecs_partial (room fuel : Nat) (objects : List Object) (rest : Bytes) (hv : AllValid objects)
    (hc : codecs objects = []) (hw : (file objects []).length ≤ 65536) (hl : (file objects rest).length < 2 ^ 32) (hr : (file objects rest).length ≤ room)
    (hf : (file objects rest).length < fuel) :
    ∃ item, Detailer Abi.windows room fuel (some (file objects rest)) ((file objects rest).take 65536) = .ok [item] ∧
      item.info.Extension = kind objects := by
  obtain ⟨item, h1, h2⟩ := reported_as room fuel hv hw hl hr hf
  refine ⟨item, h1, ?_⟩
  rw [h2, infoOf_noCodecs (noCodecs_of hv hc)]
  unfold kind
  rw [hc]
  rfl

/-- C85 for files with one codec list that has a single codec, not a video codec, or several, one of them a video codec
or none an audio codec. -/
theorem C85_kind_partial (room fuel : Nat) (pre post : List Object) (id : Bytes) (cs : List Codec) (rest : Bytes)
    (objects : List Object) (ho : objects = pre ++ .codecList id cs :: post) (hv : AllValid objects)
    (hpre : codecs pre = []) (hpost : codecs post = [])
    (hc : (cs.length = 1 ∧ ∀ c ∈ cs, ¬ b!"Windows Media Video" <+: c.name.chars) ∨
      (cs.length ≠ 1 ∧ ((∃ c ∈ cs, b!"Windows Media Video" <+: c.name.chars) ∨
        ∀ c ∈ cs, ¬ b!"Windows Media Audio" <+: c.name.chars)))
    (hw : (file objects []).length ≤ 65536) (hl : (file objects rest).length < 2 ^ 32) (hr : (file objects rest).length ≤ room)
    (hf : (file objects rest).length < fuel) :
    ∃ item, Detailer Abi.windows room fuel (some (file objects rest)) ((file objects rest).take 65536) = .ok [item] ∧
      item.info.Extension = kind objects := by
  obtain ⟨item, h1, h2⟩ := reported_as room fuel hv hw hl hr hf
  refine ⟨item, h1, ?_⟩
  rw [ho] at hv
  obtain ⟨v1, v2⟩ := allValid_append hv
  unfold AllValid at v2
  have n1 := noCodecs_of v1 hpre
  have n2 := noCodecs_of v2.2 hpost
  rw [h2, ho, infoOf_one n1 n2]
  unfold kind
  rw [codecs_one n1 n2]
  rcases hc with ⟨hone, hnv⟩ | ⟨hmany, hva⟩
  · obtain ⟨c, rfl⟩ := List.length_eq_one_iff.1 hone
    have hnv := hnv c (by simp)
    rw [List.map_cons, List.map_nil, codecInfo_single]
    simp only [List.mem_cons, List.not_mem_nil, or_false, exists_eq_left, hnv, if_false]
    rfl
  · rw [codecInfo_many hmany]
    split
    · rfl
    · rename_i hn
      rcases hva with h | h
      · exact absurd h hn
      · rw [if_neg (by rintro ⟨c, hc, hp⟩; exact h c hc hp)]
        rfl

example : kind sampleObjects = b!"wma" ∧ codecs (sampleObjects.take 2) = [] := by decide +kernel

/-- What the program takes a codec list to say about the file: of a list with one codec whether it is an audio codec, of
any other list whether a video codec is in it. -/
def saidBy : Object → Option Bytes
  | .codecList _ [c] => if b!"Windows Media Audio" <+: c.name.chars then some b!"wma" else none
  | .codecList _ cs => if ∃ c ∈ cs, b!"Windows Media Video" <+: c.name.chars then some b!"wmv" else none
  | _ => none

theorem infoOf_said (objects : List Object) : ∀ info : ExtInfo,
    (infoOf info objects).Extension = ((objects.filterMap saidBy).getLast?).getD info.Extension := by
  induction objects with
  | nil => intro info; rfl
  | cons o os ih =>
    intro info
    have h0 : infoOf info (o :: os) = infoOf (noteInfo info o) os := by unfold infoOf; rfl
    rw [h0, ih]
    have key : (noteInfo info o).Extension = (saidBy o).getD info.Extension := by
      unfold noteInfo saidBy
      split
      · rename_i id cs
        match cs with
        | [] =>
          rw [codecInfo_many (by simp)]
          simp
        | [c] =>
          rw [List.map_cons, List.map_nil, codecInfo_single]
          dsimp only
          split <;> rfl
        | c :: c' :: rest =>
          rw [codecInfo_many (by simp)]
          dsimp only
          split <;> rfl
      · rename_i hn
        split
        · exact absurd rfl (hn _ _)
        · exact absurd rfl (hn _ _)
        · rfl
    rw [List.filterMap_cons, key]
    cases hs : saidBy o with
    | none => rfl
    | some v =>
      dsimp only
      rw [List.getLast?_cons]
      cases (os.filterMap saidBy).getLast? <;> rfl

/-- C85, exactly, for every file with a header within the first 65536 bytes, whatever codec lists it has: the last codec
list that says something decides. -/
theorem C85_decided_partial (room fuel : Nat) (objects : List Object) (rest : Bytes) (hv : AllValid objects)
    (hw : (file objects []).length ≤ 65536) (hl : (file objects rest).length < 2 ^ 32) (hr : (file objects rest).length ≤ room)
    (hf : (file objects rest).length < fuel) :
    ∃ item, Detailer Abi.windows room fuel (some (file objects rest)) ((file objects rest).take 65536) = .ok [item] ∧
      item.info.Extension = ((objects.filterMap saidBy).getLast?).getD b!"asf" := by
  obtain ⟨item, h1, h2⟩ := reported_as room fuel hv hw hl hr hf
  exact ⟨item, h1, by rw [h2, infoOf_said]; rfl⟩

example : sampleObjects.filterMap saidBy = [b!"wma"] := by decide +kernel

/-- C85 is false of files with a single codec that is a video codec: they are reported as asf. -/
theorem C85_single_video_wrong (room fuel : Nat) (pre post : List Object) (id : Bytes) (c : Codec) (rest : Bytes)
    (objects : List Object) (ho : objects = pre ++ .codecList id [c] :: post) (hv : AllValid objects)
    (hpre : codecs pre = []) (hpost : codecs post = []) (hc : b!"Windows Media Video" <+: c.name.chars)
    (hw : (file objects []).length ≤ 65536) (hl : (file objects rest).length < 2 ^ 32) (hr : (file objects rest).length ≤ room)
    (hf : (file objects rest).length < fuel) :
    kind objects = b!"wmv" ∧
    ∃ item, Detailer Abi.windows room fuel (some (file objects rest)) ((file objects rest).take 65536) = .ok [item] ∧
      item.info.Extension = b!"asf" := by
  obtain ⟨item, h1, h2⟩ := reported_as room fuel hv hw hl hr hf
  rw [ho] at hv
  obtain ⟨v1, v2⟩ := allValid_append hv
  unfold AllValid at v2
  have n1 := noCodecs_of v1 hpre
  have n2 := noCodecs_of v2.2 hpost
  constructor
  · unfold kind
    rw [ho, codecs_one n1 n2]
    exact if_pos ⟨c, by simp, hc⟩
  · refine ⟨item, h1, ?_⟩
    rw [h2, ho, infoOf_one n1 n2, List.map_cons, List.map_nil, codecInfo_single, if_neg]
    · rfl
    · intro ha
      obtain ⟨t, ht⟩ := hc
      obtain ⟨u, hu⟩ := ha
      rw [← ht] at hu
      have := List.append_inj hu rfl
      exact absurd this.1 (by decide)

/-- C85 is false of files with several codecs, an audio codec among them but no video codec: they are reported as asf. -/
theorem C85_several_audio_wrong (room fuel : Nat) (pre post : List Object) (id : Bytes) (cs : List Codec) (rest : Bytes)
    (objects : List Object) (ho : objects = pre ++ .codecList id cs :: post) (hv : AllValid objects)
    (hpre : codecs pre = []) (hpost : codecs post = []) (hn : cs.length ≠ 1)
    (ha : ∃ c ∈ cs, b!"Windows Media Audio" <+: c.name.chars) (hnv : ∀ c ∈ cs, ¬ b!"Windows Media Video" <+: c.name.chars)
    (hw : (file objects []).length ≤ 65536) (hl : (file objects rest).length < 2 ^ 32) (hr : (file objects rest).length ≤ room)
    (hf : (file objects rest).length < fuel) :
    kind objects = b!"wma" ∧
    ∃ item, Detailer Abi.windows room fuel (some (file objects rest)) ((file objects rest).take 65536) = .ok [item] ∧
      item.info.Extension = b!"asf" := by
  obtain ⟨item, h1, h2⟩ := reported_as room fuel hv hw hl hr hf
  rw [ho] at hv
  obtain ⟨v1, v2⟩ := allValid_append hv
  unfold AllValid at v2
  have n1 := noCodecs_of v1 hpre
  have n2 := noCodecs_of v2.2 hpost
  have hnv' : ¬ ∃ c ∈ cs, b!"Windows Media Video" <+: c.name.chars := fun ⟨c, hc, h⟩ => hnv c hc h
  constructor
  · unfold kind
    rw [ho, codecs_one n1 n2, if_neg hnv', if_pos ha]
  · refine ⟨item, h1, ?_⟩
    rw [h2, ho, infoOf_one n1 n2, codecInfo_many hn, if_neg hnv']
    rfl

/-- Codecs the last theorems apply to. -/
def videoCodec : Codec := ⟨1, ⟨b!"Windows Media Video 9", 1⟩, ⟨[], 1⟩, b!"WMV3"⟩
def audioCodec : Codec := ⟨2, ⟨b!"Windows Media Audio 9", 1⟩, ⟨b!"48 kHz", 1⟩, [0x61, 1]⟩
def voiceCodec : Codec := ⟨2, ⟨b!"ACELP.net", 1⟩, ⟨[], 1⟩, []⟩

theorem codecs_valid : videoCodec.Valid ∧ audioCodec.Valid ∧ voiceCodec.Valid :=
  ⟨⟨by decide, ⟨by decide, by decide⟩, ⟨by decide, by decide⟩, by decide⟩,
   ⟨by decide, ⟨by decide, by decide⟩, ⟨by decide, by decide⟩, by decide⟩,
   ⟨by decide, ⟨by decide, by decide⟩, ⟨by decide, by decide⟩, by decide⟩⟩

theorem codecList_valid {cs : List Codec} (h1 : cs ≠ []) (h : ∀ c ∈ cs, c.Valid) :
    AllValid [.codecList (List.replicate 16 5) cs] := by
  unfold AllValid AllValid Object.Valid
  exact ⟨⟨by decide, h1, h⟩, trivial⟩

/-- A file with a video codec only is reported as asf. -/
example : kind [.codecList (List.replicate 16 5) [videoCodec]] = b!"wmv" ∧ ∃ item, Detailer Abi.windows 1000 1000
    (some (file [.codecList (List.replicate 16 5) [videoCodec]] []))
    ((file [.codecList (List.replicate 16 5) [videoCodec]] []).take 65536) = .ok [item] ∧ item.info.Extension = b!"asf" := by
  refine C85_single_video_wrong 1000 1000 [] [] _ videoCodec [] _ rfl (codecList_valid (by simp) ?_) rfl rfl (by decide)
    (by decide +kernel) (by decide +kernel) (by decide +kernel) (by decide +kernel)
  intro c hc
  rw [List.mem_singleton.1 hc]
  exact codecs_valid.1

/-- A file with two audio codecs is reported as asf. -/
example : kind [.codecList (List.replicate 16 5) [audioCodec, voiceCodec]] = b!"wma" ∧ ∃ item, Detailer Abi.windows 1000 1000
    (some (file [.codecList (List.replicate 16 5) [audioCodec, voiceCodec]] []))
    ((file [.codecList (List.replicate 16 5) [audioCodec, voiceCodec]] []).take 65536) = .ok [item] ∧
      item.info.Extension = b!"asf" := by
  refine C85_several_audio_wrong 1000 1000 [] [] _ [audioCodec, voiceCodec] [] _ rfl (codecList_valid (by simp) ?_) rfl rfl
    (by decide) (by decide) (by decide) (by decide +kernel) (by decide +kernel) (by decide +kernel) (by decide +kernel)
  intro c hc
  simp only [List.mem_cons, List.not_mem_nil, or_false] at hc
  rcases hc with rfl | rfl
  · exact codecs_valid.2.1
  · exact codecs_valid.2.2

/-- A file with a video and an audio codec is reported as wmv. -/
example : ∃ item, Detailer Abi.windows 1000 1000
    (some (file [.codecList (List.replicate 16 5) [audioCodec, videoCodec]] []))
    ((file [.codecList (List.replicate 16 5) [audioCodec, videoCodec]] []).take 65536) = .ok [item] ∧
      item.info.Extension = kind [.codecList (List.replicate 16 5) [audioCodec, videoCodec]] := by
  refine C85_kind_partial 1000 1000 [] [] _ [audioCodec, videoCodec] [] _ rfl (codecList_valid (by simp) ?_) rfl rfl
    (by decide) (by decide +kernel) (by decide +kernel) (by decide +kernel) (by decide +kernel)
  intro c hc
  simp only [List.mem_cons, List.not_mem_nil, or_false] at hc
  rcases hc with rfl | rfl
  · exact codecs_valid.2.1
  · exact codecs_valid.1

/-! ## C87 the platforms -/

theorem ulong_linux {b : Bytes} {off : Nat} (h : off + 8 ≤ b.length) (hb : b.length < 2 ^ 32) :
    ReadULong Abi.linux b b.length off = .ok (leVal ((b.drop off).take 8)) := by
  unfold ReadULong
  rw [show Abi.linux.ulongBytes = 8 from rfl, if_neg (by unfold u64; omega)]
  unfold rdRange
  rw [if_pos (by omega), Res.bind_ok]

theorem fileProps_linux {f : FileInfo} (h : f.Valid) : FileProps.new Abi.linux f.stored = .throw .rangeError := by
  have hl : f.stored.length = 80 := by simp [FileInfo.stored, leBytes_length, h.fileId]
  have hb : f.stored.length < 2 ^ 32 := by omega
  have e8 : ∀ off, off + 8 ≤ 80 → ReadULongLong f.stored f.stored.length off = .ok (leVal ((f.stored.drop off).take 8)) := by
    intro off ho
    unfold ReadULongLong
    rw [if_neg (by unfold u64; omega)]
    unfold rdRange
    rw [if_pos (by omega), Res.bind_ok]
  have e16 : rdRange f.stored 0 16 = .ok ((f.stored.drop 0).take 16) := by
    unfold rdRange
    rw [if_pos (by omega)]
  unfold FileProps.new
  dsimp only
  rw [e16, Res.bind_ok, e8 16 (by decide), Res.bind_ok, e8 24 (by decide), Res.bind_ok, e8 32 (by decide), Res.bind_ok,
    e8 40 (by decide), Res.bind_ok, e8 48 (by decide), Res.bind_ok, e8 56 (by decide), Res.bind_ok,
    ulong_linux (by omega) hb, Res.bind_ok, ulong_linux (by omega) hb, Res.bind_ok, ulong_linux (by omega) hb, Res.bind_ok]
  have : ReadULong Abi.linux f.stored f.stored.length 76 = .throw .rangeError := by
    unfold ReadULong
    rw [if_pos]
    rw [hl]; decide
  rw [this]
  rfl

/-- C87 is false on Linux, where `unsigned long` has eight bytes: a file whose first object gives the file properties
(every complete file has that object) is never reported, the exception leaves the extractor. -/
theorem C87_linux_wrong (room fuel : Nat) (f : FileInfo) (objects : List Object) (rest : Bytes) (hf : f.Valid)
    (hv : AllValid objects) (hw : (file (.fileProps f :: objects) []).length ≤ 65536)
    (hl : (file (.fileProps f :: objects) rest).length < 2 ^ 32)
    (hr : (file (.fileProps f :: objects) rest).length ≤ room) :
    Detailer Abi.linux room (fuel + 1) (some (file (.fileProps f :: objects) rest))
      ((file (.fileProps f :: objects) rest).take 65536) = .throw .rangeError := by
  have hid : headerId.length = 16 := ids_length (.ASF_Header_Object, headerId) (by simp [handled])
  have hif : filePropsId.length = 16 := ids_length (.ASF_File_Properties_Object, filePropsId) (by simp [handled])
  have hfl : f.stored.length = 80 := by simp [FileInfo.stored, leBytes_length, hf.fileId]
  have hst : stored (.fileProps f :: objects) = frame filePropsId f.stored ++ stored objects := by
    rw [stored]; rw [Object.data]; rfl
  have hfr : (frame filePropsId f.stored).length = 104 := by rw [frame_length hif, hfl]
  rw [detailer_window hl, file_take rest hw]
  have hle' : (file (.fileProps f :: objects) (rest.take (65536 - (file (.fileProps f :: objects) []).length))).length ≤
      (file (.fileProps f :: objects) rest).length := by
    rw [file_length, file_length _ rest, List.length_take]; omega
  replace hl := Nat.lt_of_le_of_lt hle' hl
  replace hr := Nat.le_trans hle' hr
  clear hle'
  generalize rest.take (65536 - (file (.fileProps f :: objects) []).length) = rest at hl hr ⊢
  generalize hcontent : file (.fileProps f :: objects) rest = content at *
  have hbuf := used_buffer_whole hl
  have hat : At content 0 (frame headerId (leBytes 4 (objects.length + 1) ++ [1, 2] ++
      (frame filePropsId f.stored ++ stored objects))) := by
    refine ⟨[], rest, ?_, rfl⟩
    rw [← hcontent]
    unfold file
    rw [hst, List.length_cons]
    rfl
  have hdl : (leBytes 4 (objects.length + 1) ++ [1, 2] ++ (frame filePropsId f.stored ++ stored objects)).length =
      110 + (stored objects).length := by
    simp only [List.length_append, leBytes_length, hfr]; simp; omega
  have hle := hat.length_le
  rw [frame_length hid, hdl] at hle
  obtain ⟨hs, _⟩ := stored_length_le objects (allValid_mem hv)
  have hfirst : At content 30 (frame filePropsId f.stored) := by
    have h0 := hat
    conv at h0 => arg 3; unfold frame
    obtain ⟨_, h0⟩ := at_append h0
    rw [List.length_append, leBytes_length, hid] at h0
    obtain ⟨_, h0⟩ := at_append h0
    rw [List.length_append, leBytes_length] at h0
    exact (at_append h0).1
  have t1 := typeOf_handled (.ASF_Header_Object, headerId) (by simp [handled])
  have t2 := typeOf_handled (.ASF_File_Properties_Object, filePropsId) (by simp [handled])
  have p1 : ∃ m, Parse Abi.linux room (fuel + 1) content content.length 0 =
      .ok (some (.header (134 + (stored objects).length) (m + 1) 1 2)) := by
    rw [parse_frame hid hat hl hr, construct_eq hid, t1]
    unfold constructAs newHeader
    dsimp only
    generalize hdata : leBytes 4 (objects.length + 1) ++ [1, 2] ++ (frame filePropsId f.stored ++ stored objects) = data at *
    rw [ulong_linux (by omega) (by omega), Res.bind_ok]
    have hshape : data = leBytes 4 (objects.length + 1) ++ ([1, 2] ++ (frame filePropsId f.stored ++ stored objects)) := by
      rw [← hdata, List.append_assoc]
    have r4 : rd data 4 = .ok 1 := by
      unfold rd
      rw [hshape, List.getElem?_append_right (by rw [leBytes_length]; omega), leBytes_length]
      rfl
    have r5 : rd data 5 = .ok 2 := by
      unfold rd
      rw [hshape, List.getElem?_append_right (by rw [leBytes_length]; omega), leBytes_length]
      rfl
    rw [r4, Res.bind_ok, r5, Res.bind_ok, Res.bind_ok]
    have hpos : leVal ((data.drop 0).take 8) ≠ 0 := by
      have e : (data.drop 0).take 8 = leBytes 4 (objects.length + 1) ++
          ([1, 2] ++ (frame filePropsId f.stored ++ stored objects)).take 4 := by
        rw [List.drop_zero, hshape, List.take_append, leBytes_length,
          List.take_of_length_le (by rw [leBytes_length]; omega)]
      rw [e, leVal_append, leVal_leBytes, Nat.mod_eq_of_lt (by omega)]
      omega
    obtain ⟨m, hm⟩ := Nat.exists_eq_succ_of_ne_zero hpos
    refine ⟨m, ?_⟩
    rw [hm, hdl, show 24 + (110 + (stored objects).length) = 134 + (stored objects).length by omega]
  obtain ⟨m, p1⟩ := p1
  have p2 : Parse Abi.linux room (fuel + 1) content content.length 30 = .throw .rangeError := by
    rw [parse_frame hif hfirst hl hr, construct_eq hif, t2]
    unfold constructAs
    dsimp only
    rw [fileProps_linux hf]
    rfl
  unfold Detailer
  dsimp only
  rw [hbuf, p1, Res.bind_ok]
  dsimp only
  rw [headerLoop, if_pos (by omega), p2]
  rfl

/-- The numbers of a file. -/
example : FileInfo.Valid ⟨List.replicate 16 9, 5000, 132000000000000000, 3, 40000000, 40000000, 3000, 2, 1400, 1400, 128000⟩ :=
  ⟨by decide, by decide, by decide, by decide, by decide, by decide, by decide, by decide, by decide, by decide, by decide⟩

end Fileid.Props
