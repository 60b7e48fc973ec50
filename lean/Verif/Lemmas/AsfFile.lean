import Verif.Lemmas.AsfEnd

/-!
# Lemmas about the document shown for an ASF file and the kind decided for
-/

namespace Fileid

open Spec

theorem JClosed.document {t : Bytes} {v : JVal} (h : JClosed t v) : jsonDocument t = some v.events := by
  unfold jsonDocument
  rw [h .value [] (Or.inl rfl)]
  rfl

theorem xmlDocument_elem {n t : Bytes} {vs : List XVal} (hn : isName n = true) (h : XReads t vs) :
    xmlDocument (elemText n t) = some (XVal.elem n vs).events := by
  unfold xmlDocument
  rw [run_elem hn h]
  rfl

end Fileid

namespace Fileid.Asf

open Common Spec Spec.Asf

/-- The result the walk starts with. -/
def asfInfo : ExtInfo := { Extension := b!"asf", Name := b!"Advanced Systems Format (ASF)" }

/-- One of the three kinds. -/
def Known (info : ExtInfo) : Prop := ∃ e ∈ kindNames, info = { Extension := e.1, Name := e.2 }

theorem known_asf : Known asfInfo := ⟨(b!"asf", b!"Advanced Systems Format (ASF)"), by simp [kindNames], rfl⟩

theorem known_codecInfo {info : ExtInfo} (h : Known info) (cs : List CodecEntry) : Known (codecInfo info cs) := by
  unfold codecInfo
  split
  · split
    · obtain ⟨e, he, rfl⟩ := h
      exact ⟨(b!"wma", b!"Windows Media Audio"), by simp [kindNames], rfl⟩
    · exact h
  · rename_i hne
    clear hne
    induction cs generalizing info with
    | nil => exact h
    | cons c cs ih =>
      rw [List.foldl_cons]
      split
      · obtain ⟨e, he, rfl⟩ := h
        exact ih ⟨(b!"wmv", b!"Windows Media Video"), by simp [kindNames], rfl⟩
      · exact ih h

theorem known_infoOf (os : List Object) {info : ExtInfo} (h : Known info) : Known (infoOf info os) := by
  unfold infoOf
  induction os generalizing info with
  | nil => exact h
  | cons o os ih =>
    rw [List.foldl_cons]
    refine ih ?_
    unfold noteInfo
    split
    · exact known_codecInfo h _
    · exact h

/-- Not a codec list. -/
def NoCodecs (os : List Object) : Prop := ∀ id cs, Object.codecList id cs ∉ os

theorem infoOf_noCodecs {os : List Object} (h : NoCodecs os) (info : ExtInfo) : infoOf info os = info := by
  unfold infoOf
  induction os generalizing info with
  | nil => rfl
  | cons o os ih =>
    rw [List.foldl_cons]
    have e : noteInfo info o = info := by
      unfold noteInfo
      split
      · rename_i id cs
        exact absurd (List.mem_cons_self ..) (h id cs)
      · rfl
    rw [e]
    exact ih (fun id cs hm => h id cs (List.mem_cons_of_mem _ hm)) info

theorem codecs_noCodecs {os : List Object} (h : NoCodecs os) : codecs os = [] := by
  unfold codecs
  rw [List.flatMap_eq_nil_iff]
  intro o ho
  split
  · exact absurd ho (h _ _)
  · rfl

theorem infoOf_one {pre post : List Object} {id : Bytes} {cs : List Codec} (h1 : NoCodecs pre) (h2 : NoCodecs post)
    (info : ExtInfo) : infoOf info (pre ++ .codecList id cs :: post) = codecInfo info (cs.map keptCodec) := by
  have e1 := infoOf_noCodecs h1 info
  have e2 := infoOf_noCodecs h2 (codecInfo info (cs.map keptCodec))
  unfold infoOf at *
  rw [List.foldl_append, List.foldl_cons, e1]
  exact e2

theorem codecs_one {pre post : List Object} {id : Bytes} {cs : List Codec} (h1 : NoCodecs pre) (h2 : NoCodecs post) :
    codecs (pre ++ .codecList id cs :: post) = cs := by
  have e1 := codecs_noCodecs h1
  have e2 := codecs_noCodecs h2
  unfold codecs at *
  rw [List.flatMap_append, List.flatMap_cons, e1, e2]
  simp

theorem kept_name (c : Codec) : (keptCodec c).Name = c.name.chars := rfl

/-- Several codecs: video if one of them is, else what it was. -/
theorem codecInfo_many {cs : List Codec} (h : cs.length ≠ 1) (info : ExtInfo) :
    (codecInfo info (cs.map keptCodec)).Extension =
      if ∃ c ∈ cs, b!"Windows Media Video" <+: c.name.chars then b!"wmv" else info.Extension := by
  have e : codecInfo info (cs.map keptCodec) = (cs.map keptCodec).foldl (fun e c => if b!"Windows Media Video" <+: c.Name then
      { e with Extension := b!"wmv", Name := b!"Windows Media Video" } else e) info := by
    unfold codecInfo
    split
    · rename_i heq
      have := congrArg List.length heq
      rw [List.length_map] at this
      exact absurd this h
    · rfl
  rw [e]
  clear e h
  induction cs generalizing info with
  | nil => simp
  | cons c cs ih =>
    rw [List.map_cons, List.foldl_cons, kept_name, ih]
    by_cases hc : b!"Windows Media Video" <+: c.name.chars
    · have hx : ∃ d ∈ c :: cs, b!"Windows Media Video" <+: d.name.chars := ⟨c, List.mem_cons_self .., hc⟩
      rw [if_pos hc, if_pos hx]
      split <;> rfl
    · rw [if_neg hc]
      by_cases hs : ∃ c ∈ cs, b!"Windows Media Video" <+: c.name.chars
      · obtain ⟨d, hd, hd'⟩ := hs
        have hx : ∃ d ∈ c :: cs, b!"Windows Media Video" <+: d.name.chars := ⟨d, List.mem_cons_of_mem _ hd, hd'⟩
        rw [if_pos ⟨d, hd, hd'⟩, if_pos hx]
      · rw [if_neg hs, if_neg]
        rintro ⟨d, hd, hd'⟩
        rcases List.mem_cons.1 hd with rfl | hd
        · exact hc hd'
        · exact hs ⟨d, hd, hd'⟩

theorem codecInfo_single (c : Codec) (info : ExtInfo) : (codecInfo info [keptCodec c]).Extension =
    if b!"Windows Media Audio" <+: c.name.chars then b!"wma" else info.Extension := by
  unfold codecInfo
  dsimp only
  rw [kept_name]
  split <;> rfl

/-! ## The document -/

set_option maxRecDepth 4000

theorem item_spec {objects : List Object} {objs : List Obj} (h : Pointwise Shows objects objs) (size : Nat) {info : ExtInfo}
    (hi : Known info) : ∃ item, toItem info (.header size objects.length 1 2 :: objs) = .ok item ∧ item.info = info ∧
      item.text = info.Extension ++ b!"\t\t0" ∧ item.csv = info.Extension ++ b!",,0" ∧
      jsonDocument item.json = some (fileJson program info.Extension objects).events ∧
      xmlDocument item.xml = some (fileXml program info.Extension objects).events := by
  obtain ⟨js, hj1, hj2⟩ := shows_jsons h
  obtain ⟨xs, hx1, hx2⟩ := shows_xmls h
  have hd := header_displays size objects.length 1 2
  obtain ⟨tj, hj3, hj4⟩ := hd.json
  obtain ⟨tx, hx3, hx4⟩ := hd.xml
  have ej : Obj.toJsons (.header size objects.length 1 2 :: objs) = .ok (tj :: js) := by
    rw [Obj.toJsons, hj3, Res.bind_ok, hj1]; rfl
  have ex : Obj.toXmls (.header size objects.length 1 2 :: objs) = .ok (tx :: xs) := by
    rw [Obj.toXmls, hx3, Res.bind_ok, hx1]; rfl
  obtain ⟨e, he, rfl⟩ := hi
  have hp : Plain e.1 ∧ Plain e.2 ∧ e.2.length > 0 ∧ nameOf kindNames [] e.1 = e.2 := by
    have : ∀ e ∈ kindNames, (jsonPlain e.1 = true ∧ xmlVerbatim e.1 = true) ∧ (jsonPlain e.2 = true ∧ xmlVerbatim e.2 = true) ∧
      e.2.length > 0 ∧ nameOf kindNames [] e.1 = e.2 := by decide
    exact this e he
  obtain ⟨hp1, hp2, hp3, hp4⟩ := hp
  refine ⟨_, by unfold toItem; rw [ej, Res.bind_ok, ex, Res.bind_ok], rfl, ?_, ?_, ?_, ?_⟩
  · show e.1 ++ b!"\t" ++ [] ++ b!"\t" ++ dec 0 = _
    simp; rfl
  · show e.1 ++ b!"," ++ [] ++ b!"," ++ dec 0 = _
    simp; rfl
  · have key := jclosed_obj (ms := [{ key := b!"extension", mid := b!" : ", val := b!"\"" ++ e.1 ++ b!"\"" },
        { pre := b!" ", key := b!"name", val := b!"\"" ++ e.2 ++ b!"\"" },
        { pre := b!" ", key := b!"headers", val := arrText (tj :: js) }])
      (.cons (b := (b!"extension", .text e.1)) ⟨rfl, rfl, rfl, ⟨b!" ", b!" ", rfl, rfl, rfl⟩, (jclosed_text hp1.1).reads⟩ <|
       .cons (b := (b!"name", .text e.2)) ⟨rfl, rfl, rfl, ⟨[], [], rfl, rfl, rfl⟩, (jclosed_text hp2.1).reads⟩ <|
       .cons (b := (b!"headers", .arr _)) ⟨rfl, rfl, rfl, ⟨[], [], rfl, rfl, rfl⟩, (jclosed_arr (.cons hj4.reads hj2)).reads⟩ .nil)
    have := (key.of (t' := b!"{" ++ ExtInfo.buildBaseJson { Extension := e.1, Name := e.2 } ++
      (if (Obj.header size objects.length 1 2 :: objs).length > 0 then b!", \"headers\":[" ++ commas (tj :: js) ++ b!"]" else []) ++ b!"}")
      (v' := fileJson program e.1 objects) ?_ ?_).document
    · exact this
    · rw [if_pos (by simp)]
      unfold ExtInfo.buildBaseJson
      dsimp only
      rw [if_pos hp3]
      simp only [List.length_nil, Nat.lt_irrefl, if_false, gt_iff_lt, List.append_nil]
      texts
    · unfold fileJson
      rw [hp4]
      rfl
  · have key := xmlDocument_elem (n := b!"item") (by decide) ((leaf (n := b!"extension") (by decide) hp1).append <|
        (leaf (n := b!"name") (by decide) hp2).append <|
        xreads_elem (n := b!"headers") (by decide) (xreads_flatten (.cons hx4 hx2)))
    have e1 : b!"<item>" ++ ExtInfo.buildBaseXml { Extension := e.1, Name := e.2 } ++
      (if (Obj.header size objects.length 1 2 :: objs).length > 0 then b!"<headers>" ++ (tx :: xs).flatten ++ b!"</headers>" else []) ++
      b!"</item>" = elemText b!"item" (elemText b!"extension" e.1 ++ (elemText b!"name" e.2 ++
        elemText b!"headers" (tx :: xs).flatten)) := by
      rw [if_pos (by simp)]
      unfold ExtInfo.buildBaseXml
      dsimp only
      rw [if_pos hp3]
      simp only [List.length_nil, Nat.lt_irrefl, if_false, gt_iff_lt, List.append_nil]
      texts
    show xmlDocument (b!"<item>" ++ ExtInfo.buildBaseXml { Extension := e.1, Name := e.2 } ++
      (if (Obj.header size objects.length 1 2 :: objs).length > 0 then b!"<headers>" ++ (tx :: xs).flatten ++ b!"</headers>" else []) ++
      b!"</item>") = _
    rw [e1, key]
    unfold fileXml
    rw [hp4]
    rfl

/-! ## What is shown rightly -/

theorem value_agrees {v : Value} (h : ∀ n, v = .dword n → bigEndian (leBytes 4 n) = n) : v.shown program = v.shown right := by
  cases v with
  | dword n => show dec (bigEndian (leBytes 4 n)) = dec n; rw [h n rfl]
  | _ => rfl

theorem typeName_agrees {id : Bytes} (h : id ≠ compatibilityId) : program.typeName id = right.typeName id := by
  show (if id = compatibilityId then _ else _) = _
  rw [if_neg h]; rfl

mutual
theorem json_agrees : ∀ (o : Object), o.Agrees → o.json program = o.json right ∧ o.xml program = o.xml right
  | .other id data, h => by
    unfold Object.Agrees at h
    simp only [Object.json, Object.xml, typeName_agrees h, and_self]
  | .fileProps f, _ => by simp only [Object.json, Object.xml, and_self]
  | .streamProps s, h => by
    unfold Object.Agrees at h
    simp only [Object.json, Object.xml, typeName_agrees h.1, typeName_agrees h.2, and_self]
  | .headerExt clock n cs, h => by
    unfold Object.Agrees at h
    obtain ⟨h1, h2⟩ := jsons_agree cs h.2
    simp only [Object.json, Object.xml, typeName_agrees h.1, h1, h2, and_self]
  | .contentDesc .., h => by unfold Object.Agrees at h; exact h.elim
  | .extContent as, h => by
    unfold Object.Agrees at h
    have e1 : (as.map fun a => (a.name.chars, JVal.text (a.value.shown program))) =
        as.map fun a => (a.name.chars, JVal.text (a.value.shown right)) :=
      List.map_congr_left fun a ha => by rw [value_agrees (h a ha)]
    have e2 : ∀ as : List Attr, (∀ a ∈ as, ∀ n, a.value = .dword n → bigEndian (leBytes 4 n) = n) →
        (as.flatMap fun a => [XVal.leaf b!"Name" a.name.chars, .leaf b!"Value" (a.value.shown program)]) =
        as.flatMap fun a => [XVal.leaf b!"Name" a.name.chars, .leaf b!"Value" (a.value.shown right)] := by
      intro as
      induction as with
      | nil => intro _; rfl
      | cons a as ih =>
        intro h
        rw [List.flatMap_cons, List.flatMap_cons, ih fun b hb => h b (by simp [hb]), value_agrees (h a (by simp))]
    simp only [Object.json, Object.xml, e1, e2 as h, and_self]
  | .codecList id cs, h => by
    unfold Object.Agrees at h
    simp only [Object.json, Object.xml, typeName_agrees h, and_self]
theorem jsons_agree : ∀ (os : List Object), AllAgree os → jsons program os = jsons right os ∧ xmls program os = xmls right os
  | [], _ => by simp only [jsons, xmls, and_self]
  | o :: os, h => by
    unfold AllAgree at h
    obtain ⟨h1, h2⟩ := json_agrees o h.1
    obtain ⟨h3, h4⟩ := jsons_agree os h.2
    simp only [jsons, xmls, h1, h2, h3, h4, and_self]
end

end Fileid.Asf
