import Verif.Lemmas.AsfShow
import Verif.Props.Exec

/-!
# Lemmas about the objects found in ASF files
-/

namespace Fileid.Asf

open Common Spec Spec.Asf

theorem id_length {o : Object} (h : o.Valid) : o.id.length = 16 := by
  cases o with
  | other id d => unfold Object.Valid at h; exact h.1
  | fileProps f => exact ids_length (.ASF_File_Properties_Object, filePropsId) (by simp [handled])
  | streamProps s => exact ids_length (.ASF_Stream_Properties_Object, streamPropsId) (by simp [handled])
  | headerExt c n cs => exact ids_length (.ASF_Header_Extension_Object, headerExtId) (by simp [handled])
  | contentDesc t a c d r => exact ids_length (.ASF_Content_Description_Object, contentDescId) (by simp [handled])
  | extContent as => exact ids_length (.ASF_Extended_Content_Description_Object, extContentId) (by simp [handled])
  | codecList id cs => exact ids_length (.ASF_Codec_List_Object, codecListId) (by simp [handled])

theorem frame_length {id data : Bytes} (h : id.length = 16) : (frame id data).length = 24 + data.length := by
  unfold frame
  rw [List.length_append, List.length_append, leBytes_length]
  omega

theorem allValid_mem {os : List Object} (h : AllValid os) : ∀ o ∈ os, o.Valid := by
  induction os with
  | nil => intro o ho; cases ho
  | cons a os ih =>
    unfold AllValid at h
    intro o ho
    rcases List.mem_cons.1 ho with rfl | ho
    · exact h.1
    · exact ih h.2 o ho

/-- Reading an object: what `Parse` does up to the constructors. -/
theorem parse_frame {abi : Abi} {room fuel : Nat} {b id data : Bytes} {off : Nat} (hi : id.length = 16) (h : At b off (frame id data))
    (hb : b.length < 2 ^ 32) (hr : b.length ≤ room) :
    Parse abi room (fuel + 1) b b.length off =
      (construct abi room (Parse abi room fuel) fuel id (24 + data.length) data >>= fun obj =>
        Res.ok (some obj)) := by
  have hl := h.length_le
  rw [frame_length hi] at hl
  have h0 := h
  unfold frame at h0
  rw [List.append_assoc] at h0
  obtain ⟨a0, h0⟩ := at_append h0
  obtain ⟨a1, a2⟩ := at_append h0
  rw [leBytes_length, hi] at a2
  rw [hi] at a1
  have e1 : u32 (off + 16) = off + 16 := by unfold u32; omega
  have e2 : u32 (off + 16 + 8) = off + 16 + 8 := by unfold u32; omega
  have e3 : sub64 (u64 (off + 16 + 8 + (24 + data.length))) 24 = off + 24 + data.length := by unfold sub64 u64; omega
  have e4 : sub64 (24 + data.length) 24 = data.length := by unfold sub64; omega
  rw [Parse, e1, if_neg (by omega), rdRange_of_at a0 hi.symm, Res.bind_ok]
  dsimp only
  rw [e2, if_neg (by omega), llong_at a1 (by omega) hb, Res.bind_ok, e3, if_neg (by omega), e4,
    readBuffer_at a2 rfl hb hr, Res.bind_ok]

theorem construct_eq {abi : Abi} {room fuel size : Nat} {parse : Bytes → Nat → Nat → Res (Option Obj)} {id data : Bytes}
    (hi : id.length = 16) : construct abi room parse fuel id size data =
      constructAs abi room parse fuel (typeOf id) size data := by
  unfold construct
  rw [fromGuid_eq hi, Res.bind_ok]

/-- The loop over the objects of a header extension, given that each object can be read. -/
theorem ext_spec {parse : Nat → Res (Option Obj)} {b : Bytes} (hb : b.length < 2 ^ 32) (os : List Object) :
    ∀ (fuel off : Nat) (acc : List Obj), (∀ o ∈ os, o.Valid) →
    (∀ o ∈ os, ∀ off, At b off (frame o.id o.data) → ∃ obj, parse off = .ok (some obj) ∧ Shows o obj) →
    At b off (stored os) → off + (stored os).length = b.length → os.length < fuel →
    ∃ objs, extLoop parse b.length fuel off acc = .ok (acc ++ objs) ∧ Pointwise Shows os objs := by
  induction os with
  | nil =>
    intro fuel off acc _ _ h hl hf
    obtain ⟨f, rfl⟩ : ∃ f, fuel = f + 1 := ⟨fuel - 1, by omega⟩
    refine ⟨[], ?_, .nil⟩
    have : (stored []).length = 0 := rfl
    rw [extLoop, if_neg (by omega)]
    simp
  | cons o os ih =>
    intro fuel off acc hv hp h hl hf
    obtain ⟨f, rfl⟩ : ∃ f, fuel = f + 1 := ⟨fuel - 1, by omega⟩
    rw [stored] at h hl
    obtain ⟨h1, h2⟩ := at_append h
    have hi := frame_length (data := o.data) (id_length (hv o (by simp)))
    rw [List.length_append, hi] at hl
    rw [hi] at h2
    obtain ⟨obj, g1, g2⟩ := hp o (by simp) off h1
    have hd := g2.data
    have e : u32 (off + 24 + obj.data.length) = off + (24 + o.data.length) := by rw [hd]; unfold u32; omega
    rw [extLoop, if_pos (by omega), g1, Res.bind_ok]
    dsimp only
    rw [e]
    rw [List.length_cons] at hf
    obtain ⟨objs, g3, g4⟩ := ih f (off + (24 + o.data.length)) (acc ++ [obj]) (fun x hx => hv x (by simp [hx]))
      (fun x hx => hp x (by simp [hx])) h2 (by omega) (by omega)
    exact ⟨obj :: objs, by rw [g3]; simp, .cons g2 g4⟩

theorem stored_length_le (os : List Object) (hv : ∀ o ∈ os, o.Valid) : 24 * os.length ≤ (stored os).length ∧
    ∀ o ∈ os, 24 + o.data.length ≤ (stored os).length := by
  induction os with
  | nil => exact ⟨by simp, fun o ho => by cases ho⟩
  | cons a os ih =>
    obtain ⟨h1, h2⟩ := ih fun o ho => hv o (by simp [ho])
    have hi := frame_length (data := a.data) (id_length (hv a (by simp)))
    rw [stored, List.length_append, hi, List.length_cons]
    refine ⟨by omega, fun o ho => ?_⟩
    rcases List.mem_cons.1 ho with rfl | ho
    · omega
    · have := h2 o ho; omega

theorem construct_spec (n : Nat) : ∀ (o : Object), o.data.length ≤ n → o.Valid → ∀ {room fuel size : Nat},
    24 + o.data.length ≤ fuel → o.data.length < 2 ^ 32 → o.data.length ≤ room →
    ∃ obj, construct Abi.windows room (Parse Abi.windows room fuel) fuel o.id size o.data = .ok obj ∧ Shows o obj := by
  induction n using Nat.strongRecOn with
  | _ n ih =>
    intro o hn hv room fuel size hf hb hr
    have hid := id_length hv
    rw [construct_eq hid]
    cases o with
    | other id d =>
      unfold Object.Valid at hv
      refine ⟨.unknown (typeOf id) d, ?_, ?_⟩
      · have h := typeOf_other hv.2
        show constructAs _ _ _ _ (typeOf id) _ _ = _
        unfold constructAs
        split
        · exact absurd (by assumption) (h (.ASF_Header_Object, headerId) (by simp [handled]))
        · exact absurd (by assumption) (h (.ASF_File_Properties_Object, filePropsId) (by simp [handled]))
        · exact absurd (by assumption) (h (.ASF_Stream_Properties_Object, streamPropsId) (by simp [handled]))
        · exact absurd (by assumption) (h (.ASF_Header_Extension_Object, headerExtId) (by simp [handled]))
        · exact absurd (by assumption) (h (.ASF_Content_Description_Object, contentDescId) (by simp [handled]))
        · exact absurd (by assumption) (h (.ASF_Extended_Content_Description_Object, extContentId) (by simp [handled]))
        · exact absurd (by assumption) (h (.ASF_Codec_List_Object, codecListId) (by simp [handled]))
        · rw [Object.data]
      · refine ⟨by rw [Object.data]; rfl, other_displays id d, fun _ => rfl⟩
    | fileProps f =>
      have ht := typeOf_handled (.ASF_File_Properties_Object, filePropsId) (by simp [handled])
      rw [show (Object.fileProps f).id = filePropsId from rfl, ht]
      have hd : (Object.fileProps f).data = f.stored := by rw [Object.data]
      rw [hd]
      unfold Object.Valid at hv
      unfold constructAs
      dsimp only
      rw [fileProps_spec hv, Res.bind_ok]
      exact ⟨_, rfl, ⟨by rw [hd]; rfl, fileProps_displays f _, fun _ => rfl⟩⟩
    | streamProps s =>
      have ht := typeOf_handled (.ASF_Stream_Properties_Object, streamPropsId) (by simp [handled])
      rw [show (Object.streamProps s).id = streamPropsId from rfl, ht]
      have hd : (Object.streamProps s).data = s.stored := by rw [Object.data]
      rw [hd] at hb hr ⊢
      unfold Object.Valid at hv
      unfold constructAs
      dsimp only
      rw [streamProps_spec hv hb hr, Res.bind_ok]
      exact ⟨_, rfl, ⟨by rw [hd]; rfl, streamProps_displays s _, fun _ => rfl⟩⟩
    | contentDesc t a c d r =>
      have ht := typeOf_handled (.ASF_Content_Description_Object, contentDescId) (by simp [handled])
      rw [show (Object.contentDesc t a c d r).id = contentDescId from rfl, ht]
      unfold Object.Valid at hv
      obtain ⟨v1, v2, v3, v4, v5⟩ := hv
      unfold constructAs
      dsimp only
      rw [contentDesc_spec v1 v2 v3 v4 v5, Res.bind_ok]
      exact ⟨_, rfl, ⟨rfl, contentDesc_displays v1 v2 v3 v4 v5 _, fun _ => rfl⟩⟩
    | extContent as =>
      have ht := typeOf_handled (.ASF_Extended_Content_Description_Object, extContentId) (by simp [handled])
      rw [show (Object.extContent as).id = extContentId from rfl, ht]
      have hd : (Object.extContent as).data = leBytes 2 as.length ++ as.flatMap Attr.stored := by rw [Object.data]
      unfold Object.Valid at hv
      obtain ⟨v1, v2, v3⟩ := hv
      obtain ⟨a0, a1⟩ := at_append (hd ▸ at_self (Object.extContent as).data)
      rw [leBytes_length] at a1
      rw [← hd] at a0 a1
      unfold constructAs
      dsimp only
      unfold newExtContent
      rw [ushort_at a0 v2 hb, Res.bind_ok, attrs_spec hb hr as 2 [] a1 v3, Res.bind_ok]
      exact ⟨_, rfl, ⟨rfl, extContent_displays v1 v3 _, fun _ => rfl⟩⟩
    | codecList id cs =>
      have ht := typeOf_handled (.ASF_Codec_List_Object, codecListId) (by simp [handled])
      rw [show (Object.codecList id cs).id = codecListId from rfl, ht]
      have hd : (Object.codecList id cs).data = id ++ (leBytes 4 cs.length ++ cs.flatMap Codec.stored) := by
        rw [Object.data, List.append_assoc]
      unfold Object.Valid at hv
      obtain ⟨v1, v2, v3⟩ := hv
      obtain ⟨a0, a1⟩ := at_append (hd ▸ at_self (Object.codecList id cs).data)
      obtain ⟨a1, a2⟩ := at_append a1
      rw [leBytes_length] at a2
      rw [v1] at a1 a2
      rw [← hd] at a0 a1 a2
      have hlen : cs.length < 2 ^ 32 := by
        have : ∀ l : List Codec, l.length ≤ (l.flatMap Codec.stored).length := by
          intro l
          induction l with
          | nil => simp
          | cons c l ih => rw [List.flatMap_cons, List.length_append, codec_length, List.length_cons]; omega
        have h1 := this cs
        have h2 := a2.length_le
        omega
      unfold constructAs
      dsimp only
      unfold newCodecList
      rw [rdRange_of_at a0 v1.symm, Res.bind_ok, fromGuid_eq v1, Res.bind_ok, ulong_at a1 hlen hb, Res.bind_ok,
        codecs_spec hb hr cs 20 [] a2 v3, Res.bind_ok]
      exact ⟨_, rfl, ⟨rfl, codecList_displays v2 v3 id _, fun _ => rfl⟩⟩
    | headerExt clock m cs =>
      have ht := typeOf_handled (.ASF_Header_Extension_Object, headerExtId) (by simp [handled])
      rw [show (Object.headerExt clock m cs).id = headerExtId from rfl, ht]
      have hd : (Object.headerExt clock m cs).data =
          clock ++ (leBytes 2 m ++ (leBytes 4 (stored cs).length ++ stored cs)) := by
        rw [Object.data, List.append_assoc, List.append_assoc]
      unfold Object.Valid at hv
      obtain ⟨v1, v2, v3⟩ := hv
      have v4 := allValid_mem v3
      have hl : (Object.headerExt clock m cs).data.length = 22 + (stored cs).length := by
        rw [hd, List.length_append, List.length_append, List.length_append, leBytes_length, leBytes_length]; omega
      obtain ⟨a0, a1⟩ := at_append (hd ▸ at_self (Object.headerExt clock m cs).data)
      obtain ⟨a1, a2⟩ := at_append a1
      obtain ⟨a2, a3⟩ := at_append a2
      rw [leBytes_length] at a2
      rw [leBytes_length, leBytes_length] at a3
      rw [v1] at a1 a2 a3
      rw [← hd] at a0 a1 a2 a3
      obtain ⟨s1, s2⟩ := stored_length_le cs v4
      obtain ⟨f, rfl⟩ : ∃ f, fuel = f + 1 := ⟨fuel - 1, by omega⟩
      unfold constructAs
      dsimp only
      unfold newHeaderExt
      dsimp only
      rw [rdRange_of_at a0 v1.symm, Res.bind_ok, fromGuid_eq v1, Res.bind_ok, ushort_at a1 v2 hb, Res.bind_ok,
        ulong_at a2 (by omega) hb, Res.bind_ok, readBuffer_at a3 rfl hb hr, Res.bind_ok]
      have hp : ∀ o ∈ cs, ∀ off, At (stored cs) off (frame o.id o.data) →
          ∃ obj, Parse Abi.windows room (f + 1) (stored cs) (stored cs).length off = .ok (some obj) ∧ Shows o obj := by
        intro o ho off hat
        have := s2 o ho
        obtain ⟨obj, g1, g2⟩ := ih o.data.length (by omega) o (Nat.le_refl _) (v4 o ho) (room := room) (fuel := f)
          (size := 24 + o.data.length) (by omega) (by omega) (by omega)
        rw [parse_frame (id_length (v4 o ho)) hat (by omega) (by omega), g1, Res.bind_ok]
        exact ⟨obj, rfl, g2⟩
      obtain ⟨objs, g1, g2⟩ := ext_spec (parse := Parse Abi.windows room (f + 1) (stored cs) (stored cs).length)
        (b := stored cs) (by omega) cs (f + 1) 0 [] v4 hp (at_self _) (by omega) (by omega)
      rw [g1, Res.bind_ok]
      exact ⟨_, rfl, ⟨rfl, headerExt_displays g2 clock _ m, fun _ => rfl⟩⟩

/-- An object in a buffer. -/
theorem parse_spec {o : Object} (hv : o.Valid) {room fuel : Nat} {b : Bytes} {off : Nat} (h : At b off (frame o.id o.data))
    (hf : b.length < fuel) (hb : b.length < 2 ^ 32) (hr : b.length ≤ room) :
    ∃ obj, Parse Abi.windows room fuel b b.length off = .ok (some obj) ∧ Shows o obj := by
  have hl := h.length_le
  rw [frame_length (id_length hv)] at hl
  obtain ⟨f, rfl⟩ : ∃ f, fuel = f + 1 := ⟨fuel - 1, by omega⟩
  obtain ⟨obj, g1, g2⟩ := construct_spec _ o (Nat.le_refl _) hv (room := room) (fuel := f)
    (size := 24 + o.data.length) (by omega) (by omega) (by omega)
  rw [parse_frame (id_length hv) h hb hr, g1, Res.bind_ok]
  exact ⟨obj, rfl, g2⟩

/-! ## The whole file -/

/-- The kind the program decides for. -/
def infoOf (info : ExtInfo) (os : List Object) : ExtInfo :=
  os.foldl noteInfo info

theorem headers_spec {parse : Nat → Res (Option Obj)} {b : Bytes} {size : Nat} (hb : b.length < 2 ^ 32) (os : List Object) :
    ∀ (off : Nat) (info : ExtInfo) (acc : List Obj), (∀ o ∈ os, o.Valid) →
    (∀ o ∈ os, ∀ off, At b off (frame o.id o.data) → ∃ obj, parse off = .ok (some obj) ∧ Shows o obj) →
    At b off (stored os) → off + (stored os).length = size →
    ∃ objs, headerLoop parse size os.length off info acc = .ok (infoOf info os, acc ++ objs) ∧ Pointwise Shows os objs := by
  induction os with
  | nil =>
    intro off info acc _ _ h hl
    refine ⟨[], ?_, .nil⟩
    rw [List.length_nil, headerLoop]
    simp [infoOf]
  | cons o os ih =>
    intro off info acc hv hp h hl
    rw [stored] at h hl
    have hle := h.length_le
    obtain ⟨h1, h2⟩ := at_append h
    have hi := frame_length (data := o.data) (id_length (hv o (by simp)))
    rw [List.length_append, hi] at hl hle
    rw [hi] at h2
    obtain ⟨obj, g1, g2⟩ := hp o (by simp) off h1
    have hd := g2.data
    have e : u32 (off + 24 + obj.data.length) = off + (24 + o.data.length) := by rw [hd]; unfold u32; omega
    rw [List.length_cons, headerLoop, if_pos (by omega), g1, Res.bind_ok]
    dsimp only
    rw [e]
    obtain ⟨objs, g3, g4⟩ := ih (off + (24 + o.data.length)) (noteInfo info o) (acc ++ [obj]) (fun x hx => hv x (by simp [hx]))
      (fun x hx => hp x (by simp [hx])) h2 (by omega)
    refine ⟨obj :: objs, ?_, .cons g2 g4⟩
    rw [g2.codecs info, g3]
    simp [infoOf]

/-- The bytes that the extractor uses are those it is given: it reads the file again only if it was given 512 bytes,
which is then all of the file. -/
theorem used_buffer {content : Bytes} (hl : content.length < 2 ^ 32) :
    (if (content.take 65536).length = 512 then readFile (some content) (getFileSize (some content))
      else content.take 65536) = content.take 65536 := by
  split
  · rename_i h
    rw [List.length_take] at h
    rw [Props.readFile_some _ _ hl, List.take_of_length_le (i := 65536) (by omega)]
    exact List.take_of_length_le (by unfold getFileSize; dsimp only; (try unfold u32); omega)
  · rfl

theorem used_buffer_whole {content : Bytes} (hl : content.length < 2 ^ 32) :
    (if content.length = 512 then readFile (some content) (getFileSize (some content)) else content) = content := by
  split
  · rw [Props.readFile_some _ _ hl]
    exact List.take_of_length_le (by unfold getFileSize; dsimp only; (try unfold u32); omega)
  · rfl

/-- Only the first 65536 bytes of the file matter. -/
theorem detailer_window {content : Bytes} (hl : content.length < 2 ^ 32) (abi : Abi) (room fuel : Nat) :
    Detailer abi room fuel (some content) (content.take 65536) =
      Detailer abi room fuel (some (content.take 65536)) (content.take 65536) := by
  unfold Detailer
  rw [used_buffer hl, used_buffer_whole (by rw [List.length_take]; omega)]

theorem file_length (objects : List Object) (rest : Bytes) :
    (file objects rest).length = (file objects []).length + rest.length := by
  unfold file
  simp only [List.length_append, List.length_nil, Nat.add_zero]

theorem file_take {objects : List Object} (rest : Bytes) (hw : (file objects []).length ≤ 65536) :
    (file objects rest).take 65536 = file objects (rest.take (65536 - (file objects []).length)) := by
  unfold file at hw ⊢
  rw [List.append_nil] at hw ⊢
  rw [List.take_append, List.take_of_length_le hw]

theorem file_whole {objects : List Object} {rest : Bytes} (hv : AllValid objects)
    (hl : (file objects rest).length < 2 ^ 32) {room fuel : Nat} (hr : (file objects rest).length ≤ room)
    (hf : (file objects rest).length < fuel) :
    ∃ objs, Pointwise Shows objects objs ∧
      Detailer Abi.windows room fuel (some (file objects rest)) (file objects rest) =
        (toItem (infoOf { Extension := b!"asf", Name := b!"Advanced Systems Format (ASF)" } objects)
          (.header (30 + (stored objects).length) objects.length 1 2 :: objs) >>= fun item => .ok [item]) := by
  have hv' := allValid_mem hv
  have hid : headerId.length = 16 := ids_length (.ASF_Header_Object, headerId) (by simp [handled])
  have hbuf := used_buffer_whole hl
  have hat : At (file objects rest) 0 (frame headerId (leBytes 4 objects.length ++ [1, 2] ++ stored objects)) :=
    ⟨[], rest, rfl, rfl⟩
  generalize hfile : file objects rest = b at *
  have hfl := frame_length (data := leBytes 4 objects.length ++ [1, 2] ++ stored objects) hid
  have hdl : (leBytes 4 objects.length ++ [1, 2] ++ stored objects).length = 6 + (stored objects).length := by
    rw [List.length_append, List.length_append, leBytes_length]; rfl
  have hle := hat.length_le
  rw [hfl, hdl] at hle
  obtain ⟨s1, s2⟩ := stored_length_le objects hv'
  have hobj : At b 30 (stored objects) := by
    have h0 := hat
    unfold frame at h0
    obtain ⟨_, h0⟩ := at_append h0
    rw [List.length_append, leBytes_length, hid] at h0
    obtain ⟨_, h0⟩ := at_append h0
    rw [List.length_append, leBytes_length] at h0
    exact h0
  obtain ⟨f, rfl⟩ : ∃ f, fuel = f + 1 := ⟨fuel - 1, by omega⟩
  have ht := typeOf_handled (.ASF_Header_Object, headerId) (by simp [handled])
  have hd := at_self (leBytes 4 objects.length ++ [1, 2] ++ stored objects)
  obtain ⟨d0, d1⟩ := at_append (List.append_assoc _ _ _ ▸ hd)
  rw [leBytes_length] at d1
  rw [← List.append_assoc] at d0 d1
  have hnew : newHeader Abi.windows (leBytes 4 objects.length ++ [1, 2] ++ stored objects) (30 + (stored objects).length) =
      .ok (.header (30 + (stored objects).length) objects.length 1 2) := by
    unfold newHeader
    have r4 : rd (leBytes 4 objects.length ++ [1, 2] ++ stored objects) 4 = .ok 1 := by
      have := d1.getElem? 0 (by simp)
      simp only [Nat.add_zero, List.cons_append, List.getElem?_cons_zero] at this
      unfold rd
      rw [this]
    have r5 : rd (leBytes 4 objects.length ++ [1, 2] ++ stored objects) 5 = .ok 2 := by
      have := d1.getElem? 1 (by simp)
      simp only [List.cons_append, List.getElem?_cons_succ, List.getElem?_cons_zero] at this
      unfold rd
      rw [this]
    rw [ulong_at d0 (by omega) (by omega), Res.bind_ok, r4, Res.bind_ok, r5, Res.bind_ok]
  have hparse : Parse Abi.windows room (f + 1) b b.length 0 =
      .ok (some (.header (30 + (stored objects).length) objects.length 1 2)) := by
    rw [parse_frame hid hat hl hr, construct_eq hid, ht]
    unfold constructAs
    dsimp only
    rw [hdl, show 24 + (6 + (stored objects).length) = 30 + (stored objects).length by omega, hnew, Res.bind_ok]
  obtain ⟨objs, g1, g2⟩ := headers_spec (parse := Parse Abi.windows room (f + 1) b b.length) (b := b)
    (size := 30 + (stored objects).length) hl objects 30 { Extension := b!"asf", Name := b!"Advanced Systems Format (ASF)" }
    [.header (30 + (stored objects).length) objects.length 1 2] hv'
    (fun o ho off hat => parse_spec (hv' o ho) hat (by omega) hl hr) hobj rfl
  refine ⟨objs, g2, ?_⟩
  unfold Detailer
  dsimp only
  rw [hbuf, hparse, Res.bind_ok]
  dsimp only
  rw [g1, Res.bind_ok]
  rfl

theorem file_spec {objects : List Object} {rest : Bytes} (hv : AllValid objects)
    (hw : (file objects []).length ≤ 65536)
    (hl : (file objects rest).length < 2 ^ 32) {room fuel : Nat} (hr : (file objects rest).length ≤ room)
    (hf : (file objects rest).length < fuel) :
    ∃ objs, Pointwise Shows objects objs ∧
      Detailer Abi.windows room fuel (some (file objects rest)) ((file objects rest).take 65536) =
        (toItem (infoOf { Extension := b!"asf", Name := b!"Advanced Systems Format (ASF)" } objects)
          (.header (30 + (stored objects).length) objects.length 1 2 :: objs) >>= fun item => .ok [item]) := by
  rw [detailer_window hl, file_take rest hw]
  have hle : (file objects (rest.take (65536 - (file objects []).length))).length ≤ (file objects rest).length := by
    rw [file_length, file_length objects rest, List.length_take]; omega
  exact file_whole hv (by omega) (by omega) (by omega)

end Fileid.Asf
