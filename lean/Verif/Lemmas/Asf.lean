import Verif.Model.Asf
import Verif.Spec.Asf
import Verif.Lemmas.Json
import Verif.Lemmas.VbaProject
import Verif.Lemmas.Propset

/-!
# Lemmas about ASF files
-/

namespace Fileid.Asf

open Common Spec Spec.Asf

/-! ## Identifiers -/

/-- The type the program gives an identifier. -/
def typeOf (id : Bytes) : ASFType := ((guidTable.find? fun e => e.1 == id).map Prod.snd).getD .Unknown

theorem typeFromGuidLoop_eq (id : Bytes) (h : id.length = 16) : ∀ t : List (Bytes × ASFType), (∀ e ∈ t, e.1.length = 16) →
    typeFromGuidLoop id t = .ok (((t.find? fun e => e.1 == id).map Prod.snd).getD .Unknown) := by
  intro t
  induction t with
  | nil => intro _; rfl
  | cons e t ih =>
    intro ht
    obtain ⟨g, y⟩ := e
    have hg : g.length = 16 := ht (g, y) (by simp)
    rw [typeFromGuidLoop, Props.C22_guid_equality id g (by omega) (by omega), Res.bind_ok,
      List.take_of_length_le (by omega), List.take_of_length_le (by omega), List.find?_cons]
    by_cases hc : id = g
    · subst hc; simp
    · have hb : (g == id) = false := by simpa using fun h => hc h.symm
      simp only [hc, decide_false, Bool.false_eq_true, ↓reduceIte, hb]
      exact ih fun e he => ht e (by simp [he])

theorem fromGuid_eq {id : Bytes} (h : id.length = 16) : ASFTypeFromGuid id = .ok (typeOf id) :=
  typeFromGuidLoop_eq id h guidTable (by decide +kernel)

theorem typeOf_none {id : Bytes} (h : ∀ e ∈ guidTable, e.1 ≠ id) : typeOf id = .Unknown := by
  unfold typeOf
  rw [List.find?_eq_none.2 fun e he => by simpa using h e he]
  rfl

theorem typeOf_cases (id : Bytes) : (∃ e ∈ guidTable, e.1 = id) ∨ typeOf id = .Unknown ∧ ∀ e ∈ guidTable, e.1 ≠ id := by
  by_cases h : ∃ e ∈ guidTable, e.1 = id
  · exact Or.inl h
  · have : ∀ e ∈ guidTable, e.1 ≠ id := fun e he h' => h ⟨e, he, h'⟩
    exact Or.inr ⟨typeOf_none this, this⟩

theorem nameOf_none {names : List (Bytes × Bytes)} {d k : Bytes} (h : ∀ e ∈ names, e.1 ≠ k) : nameOf names d k = d := by
  induction names with
  | nil => rfl
  | cons e es ih => rw [nameOf, if_neg (h e (by simp)), ih fun e' he' => h e' (by simp [he'])]

theorem typeName_eq (id : Bytes) : ASFTypeToString (typeOf id) = program.typeName id := by
  rcases typeOf_cases id with ⟨e, he, rfl⟩ | ⟨h, hn⟩
  · have key : ∀ e ∈ guidTable, ASFTypeToString (typeOf e.1) = program.typeName e.1 := by decide +kernel
    exact key e he
  · rw [h]
    have key : ∀ e ∈ byBytes, e.1 = compatibilityId ∨ ∃ e' ∈ guidTable, e'.1 = e.1 := by decide +kernel
    show b!"Unknown" = if id = compatibilityId then b!"Unknown" else typeName id
    split
    · rfl
    · rename_i hc
      unfold typeName
      refine (nameOf_none ?_).symm
      intro e he h'
      rcases key e he with h1 | ⟨e', h1, h2⟩
      · exact hc (h' ▸ h1)
      · exact hn e' h1 (h2.trans h')

def handled : List (ASFType × Bytes) := [(.ASF_Header_Object, headerId), (.ASF_File_Properties_Object, filePropsId),
  (.ASF_Stream_Properties_Object, streamPropsId), (.ASF_Header_Extension_Object, headerExtId),
  (.ASF_Content_Description_Object, contentDescId), (.ASF_Extended_Content_Description_Object, extContentId),
  (.ASF_Codec_List_Object, codecListId)]

theorem typeOf_handled : ∀ e ∈ handled, typeOf e.2 = e.1 := by decide +kernel

theorem typeOf_other {id : Bytes} (h : id ∉ [headerId, filePropsId, streamPropsId, headerExtId, contentDescId,
    extContentId, codecListId]) : ∀ e ∈ handled, typeOf id ≠ e.1 := by
  rcases typeOf_cases id with ⟨e, he, rfl⟩ | ⟨h', _⟩
  · have key : ∀ e ∈ guidTable, e.1 ∈ [headerId, filePropsId, streamPropsId, headerExtId, contentDescId,
      extContentId, codecListId] ∨ ∀ e' ∈ handled, typeOf e.1 ≠ e'.1 := by decide +kernel
    rcases key e he with h1 | h1
    · exact absurd h1 h
    · exact h1
  · rw [h']; decide

theorem ids_length : ∀ e ∈ handled, e.2.length = 16 := by decide +kernel

theorem toString_plain (t : ASFType) : jsonPlain (ASFTypeToString t) = true ∧ xmlVerbatim (ASFTypeToString t) = true := by
  unfold ASFTypeToString
  have key : ∀ e ∈ nameTable, jsonPlain e.2 = true ∧ xmlVerbatim e.2 = true := by decide +kernel
  have : ∀ l : List (ASFType × Bytes), (∀ e ∈ l, jsonPlain e.2 = true ∧ xmlVerbatim e.2 = true) →
      jsonPlain (typeToStringLoop t l) = true ∧ xmlVerbatim (typeToStringLoop t l) = true := by
    intro l
    induction l with
    | nil => intro _; rw [typeToStringLoop]; decide
    | cons e l ih =>
      intro h
      obtain ⟨a, b⟩ := e
      rw [typeToStringLoop]
      split
      · exact h (a, b) (by simp)
      · exact ih fun e he => h e (by simp [he])
  exact this nameTable key

/-! ## Reading fields -/

theorem llong_at {b : Bytes} {off n : Nat} (h : At b off (leBytes 8 n)) (hn : n < 2 ^ 64) (hb : b.length < 2 ^ 32) :
    ReadULongLong b b.length off = .ok n := by
  have hl := h.length_le
  rw [leBytes_length] at hl
  unfold ReadULongLong
  rw [if_neg (by unfold u64; omega), rdRange_of_at h (leBytes_length ..).symm, Res.bind_ok, leVal_leBytes,
    Nat.mod_eq_of_lt hn]

theorem ulong_at {b : Bytes} {off n : Nat} (h : At b off (leBytes 4 n)) (hn : n < 2 ^ 32) (hb : b.length < 2 ^ 32) :
    ReadULong Abi.windows b b.length off = .ok n := by
  have hl := h.length_le
  rw [leBytes_length] at hl
  unfold ReadULong
  rw [show Abi.windows.ulongBytes = 4 from rfl, if_neg (by unfold u64; omega),
    rdRange_of_at h (leBytes_length ..).symm, Res.bind_ok, leVal_leBytes, Nat.mod_eq_of_lt hn]

theorem ushort_at {b : Bytes} {off n : Nat} (h : At b off (leBytes 2 n)) (hn : n < 2 ^ 16) (hb : b.length < 2 ^ 32) :
    ReadUShort b b.length off = .ok n := by
  have hl := h.length_le
  rw [leBytes_length] at hl
  exact readUShort_num (Vba.num_at h (by omega)) (by omega) (by omega)

theorem readBuffer_at {room : Nat} {b bs : Bytes} {off n : Nat} (h : At b off bs) (hn : bs.length = n)
    (hb : b.length < 2 ^ 32) (hr : b.length ≤ room) : readBuffer room b off n = .ok bs := by
  have hl := h.length_le
  unfold readBuffer
  rw [if_neg (by omega), if_neg (by omega), rdRange_of_at h hn.symm]

theorem stored_length (t : Text) : t.stored.length = 2 * t.units := by
  unfold Text.stored Text.units
  rw [List.length_append, List.length_replicate]
  have : (t.chars.flatMap fun c => [c, 0]).length = 2 * t.chars.length := by
    induction t.chars with
    | nil => rfl
    | cons c cs ih => rw [List.flatMap_cons, List.length_append, ih, List.length_cons]; simp; omega
  omega

theorem units_zeros (n : Nat) : units 2 n (List.replicate (2 * n) 0) = List.replicate n 0 := by
  induction n with
  | zero => rfl
  | succ n ih =>
    rw [show 2 * (n + 1) = 2 * n + 1 + 1 by omega, List.replicate_succ, List.replicate_succ, units,
      List.replicate_succ]
    show leVal [0, 0] :: units 2 n (List.replicate (2 * n) 0) = _
    rw [ih]; rfl

theorem units_stored (t : Text) : units 2 t.units t.stored = t.chars.map UInt8.toNat ++ List.replicate t.zeros 0 := by
  unfold Text.units Text.stored
  induction t.chars with
  | nil => simpa using units_zeros t.zeros
  | cons c cs ih =>
    rw [List.flatMap_cons, List.length_cons, show cs.length + 1 + t.zeros = cs.length + t.zeros + 1 by omega, units]
    show leVal [c, 0] :: units 2 (cs.length + t.zeros) _ = _
    simp only [List.map_cons, List.cons_append]
    congr 1

theorem plain_mem {s : Bytes} (h : plain s = true) {c : UInt8} (hc : c ∈ s) : 32 ≤ c.toNat ∧ c.toNat < 127 ∧ c ≠ 34 ∧ c ≠ 92 ∧ c ≠ 38 ∧ c ≠ 60 := by
  unfold plain at h
  rw [List.all_eq_true] at h
  have := h c hc
  simp only [Bool.and_eq_true, decide_eq_true_eq, bne_iff_ne, UInt8.le_iff_toNat_le, UInt8.lt_iff_toNat_lt] at this
  exact ⟨this.1.1.1.1.1, this.1.1.1.1.2, this.1.1.1.2, this.1.1.2, this.1.2, this.2⟩

theorem plain_json {s : Bytes} (h : plain s = true) : jsonPlain s = true := by
  unfold jsonPlain
  rw [List.all_eq_true]
  intro c hc
  obtain ⟨h1, h2, h3, h4, _, _⟩ := plain_mem h hc
  simp only [Bool.and_eq_true, decide_eq_true_eq, bne_iff_ne, UInt8.le_iff_toNat_le]
  exact ⟨⟨⟨h1, by show c.toNat ≤ 127; omega⟩, h3⟩, h4⟩

theorem plain_xml {s : Bytes} (h : plain s = true) : xmlVerbatim s = true := by
  unfold xmlVerbatim
  rw [List.all_eq_true]
  intro c hc
  obtain ⟨h1, h2, _, _, h5, h6⟩ := plain_mem h hc
  simp only [Bool.and_eq_true, decide_eq_true_eq, bne_iff_ne, UInt8.le_iff_toNat_le, UInt8.lt_iff_toNat_lt]
  exact ⟨⟨⟨h1, by show c.toNat < 128; omega⟩, h5⟩, h6⟩

theorem wideText_at {b : Bytes} {off n : Nat} {t : Text} (h : At b off t.stored) (ht : t.Valid) (hn : n = t.units) :
    wideText Abi.windows b off n = .ok t.chars := by
  subst hn
  unfold wideText Excel.wideString
  rw [show Abi.windows.wcharBytes = 2 from rfl, rdRange_of_at h (by rw [stored_length]; omega), Res.bind_ok,
    units_stored]
  have hu : ∀ u ∈ t.chars.map UInt8.toNat ++ List.replicate t.zeros 0, u < 128 := by
    intro u hu
    rcases List.mem_append.1 hu with h1 | h1
    · obtain ⟨c, hc, rfl⟩ := List.mem_map.1 h1
      have := (plain_mem ht.1 hc).2.1
      omega
    · rw [(List.mem_replicate.1 h1).2]; omega
  rw [Propset.convert_ascii _ _ hu, Res.bind_ok, List.map_append, Propset.ofNat_toNat_map, Props.C14_erasenulls]
  congr 1
  rw [List.filter_append]
  have h1 : t.chars.filter (fun c => decide (c ≠ 0)) = t.chars := by
    rw [List.filter_eq_self]
    intro c hc
    have := (plain_mem ht.1 hc).1
    have : c ≠ 0 := by rintro rfl; simp at this
    simpa using this
  have h2 : ((List.replicate t.zeros 0).map UInt8.ofNat).filter (fun c => decide (c ≠ 0)) = [] := by
    rw [List.filter_eq_nil_iff]
    intro c hc
    rw [List.map_replicate] at hc
    rw [(List.mem_replicate.1 hc).2]
    simp
  first
    | rw [h1, h2, List.append_nil]
    | (have e1 := h1; have e2 := h2; simp_all)

/-! ## The objects -/

theorem bin2hex_hexText (b : Bytes) : bin2hex b = hexText b := by
  have key : ∀ n < 256, setw0 2 (hexLower n) = [digitLower (n / 16), digitLower (n % 16)] := by decide +kernel
  induction b with
  | nil => rfl
  | cons c b ih =>
    rw [bin2hex_cons, ih, key c.toNat c.toNat_lt]
    rfl

theorem at_self (b : Bytes) : At b 0 b := ⟨[], [], by simp, rfl⟩

theorem fileProps_spec {f : FileInfo} (h : f.Valid) : FileProps.new Abi.windows f.stored =
    .ok { file_id := f.fileId, file_size := f.size, creation := f.creation, dp_count := f.packets,
          play_duration := f.play, send_duration := f.send, preroll := f.preroll, flags := f.flags,
          min_dp_size := f.minPacket, max_dp_size := f.maxPacket, max_bitrate := f.maxBitrate } := by
  have hl : f.stored.length = 80 := by simp [FileInfo.stored, leBytes_length, h.fileId]
  have h0 := at_self f.stored
  conv at h0 => arg 3; unfold FileInfo.stored
  simp only [List.append_assoc] at h0
  obtain ⟨a0, h0⟩ := at_append h0
  obtain ⟨a1, h0⟩ := at_append h0
  obtain ⟨a2, h0⟩ := at_append h0
  obtain ⟨a3, h0⟩ := at_append h0
  obtain ⟨a4, h0⟩ := at_append h0
  obtain ⟨a5, h0⟩ := at_append h0
  obtain ⟨a6, h0⟩ := at_append h0
  obtain ⟨a7, h0⟩ := at_append h0
  obtain ⟨a8, h0⟩ := at_append h0
  obtain ⟨a9, a10⟩ := at_append h0
  simp only [leBytes_length, h.fileId, Nat.zero_add, Nat.reduceAdd] at a1 a2 a3 a4 a5 a6 a7 a8 a9 a10
  have hb : f.stored.length < 2 ^ 32 := by omega
  unfold FileProps.new
  dsimp only
  rw [rdRange_of_at a0 h.fileId.symm, Res.bind_ok, llong_at a1 h.size hb, Res.bind_ok, llong_at a2 h.creation hb,
    Res.bind_ok, llong_at a3 h.packets hb, Res.bind_ok, llong_at a4 h.play hb, Res.bind_ok, llong_at a5 h.send hb,
    Res.bind_ok, llong_at a6 h.preroll hb, Res.bind_ok, ulong_at a7 h.flags hb, Res.bind_ok,
    ulong_at a8 h.minPacket hb, Res.bind_ok, ulong_at a9 h.maxPacket hb, Res.bind_ok, ulong_at a10 h.maxBitrate hb,
    Res.bind_ok]

theorem streamProps_spec {s : StreamInfo} (h : s.Valid) {room : Nat} (hb : s.stored.length < 2 ^ 32)
    (hr : s.stored.length ≤ room) : StreamProps.new Abi.windows room s.stored =
    .ok { streamType := typeOf s.streamType, errCorrectionType := typeOf s.errorType, time_offset := s.timeOffset,
          type_specific_data_length := s.typeData.length, error_correction_data_length := s.errorData.length,
          flags := s.flags, reserved := s.reserved, type_specific_data := s.typeData,
          error_correction_data := s.errorData } := by
  have hl : s.stored.length = 54 + s.typeData.length + s.errorData.length := by
    simp [StreamInfo.stored, leBytes_length, h.streamType, h.errorType]; omega
  have h0 := at_self s.stored
  conv at h0 => arg 3; unfold StreamInfo.stored
  simp only [List.append_assoc] at h0
  obtain ⟨a0, h0⟩ := at_append h0
  obtain ⟨a1, h0⟩ := at_append h0
  obtain ⟨a2, h0⟩ := at_append h0
  obtain ⟨a3, h0⟩ := at_append h0
  obtain ⟨a4, h0⟩ := at_append h0
  obtain ⟨a5, h0⟩ := at_append h0
  obtain ⟨a6, h0⟩ := at_append h0
  obtain ⟨a7, a8⟩ := at_append h0
  simp only [leBytes_length, h.streamType, h.errorType, Nat.zero_add, Nat.reduceAdd] at a1 a2 a3 a4 a5 a6 a7 a8
  unfold StreamProps.new
  dsimp only
  rw [rdRange_of_at a0 h.streamType.symm, Res.bind_ok, fromGuid_eq h.streamType, Res.bind_ok,
    rdRange_of_at a1 h.errorType.symm, Res.bind_ok, fromGuid_eq h.errorType, Res.bind_ok,
    llong_at a2 h.timeOffset hb, Res.bind_ok, ulong_at a3 (by omega) hb, Res.bind_ok, ulong_at a4 (by omega) hb,
    Res.bind_ok, ushort_at a5 h.flags hb, Res.bind_ok, ulong_at a6 h.reserved hb, Res.bind_ok,
    readBuffer_at a7 rfl hb hr, Res.bind_ok, show u32 (54 + s.typeData.length) = 54 + s.typeData.length by unfold u32; omega,
    readBuffer_at a8 rfl hb hr, Res.bind_ok]

theorem contentDesc_spec {t a c d r : Text} (ht : t.Valid) (ha : a.Valid) (hc : c.Valid) (hd : d.Valid) (hr : r.Valid) :
    ContentDescription.new Abi.windows (Object.contentDesc t a c d r).data =
      .ok { title := t.chars, author := a.chars, copyright := c.chars, description := d.chars, rating := r.chars } := by
  have hl : (Object.contentDesc t a c d r).data.length = 10 + 2 * t.units + 2 * a.units + 2 * c.units + 2 * d.units +
      2 * r.units := by
    simp [Object.data, leBytes_length, stored_length]; omega
  have h0 := at_self (Object.contentDesc t a c d r).data
  conv at h0 => arg 3; unfold Object.data
  simp only [List.append_assoc] at h0
  obtain ⟨a0, h0⟩ := at_append h0
  obtain ⟨a1, h0⟩ := at_append h0
  obtain ⟨a2, h0⟩ := at_append h0
  obtain ⟨a3, h0⟩ := at_append h0
  obtain ⟨a4, h0⟩ := at_append h0
  obtain ⟨a5, h0⟩ := at_append h0
  obtain ⟨a6, h0⟩ := at_append h0
  obtain ⟨a7, h0⟩ := at_append h0
  obtain ⟨a8, a9⟩ := at_append h0
  simp only [leBytes_length, stored_length, Nat.zero_add, Nat.reduceAdd] at a1 a2 a3 a4 a5 a6 a7 a8 a9
  have v1 := ht.2
  have v2 := ha.2
  have v3 := hc.2
  have v4 := hd.2
  have v5 := hr.2
  generalize (Object.contentDesc t a c d r).data = b at *
  have hb : b.length < 2 ^ 32 := by omega
  unfold ContentDescription.new
  dsimp only
  rw [ushort_at a0 v1 hb, Res.bind_ok, ushort_at a1 v2 hb, Res.bind_ok, ushort_at a2 v3 hb, Res.bind_ok,
    ushort_at a3 v4 hb, Res.bind_ok, ushort_at a4 v5 hb, Res.bind_ok,
    wideText_at a5 ht (by omega), Res.bind_ok,
    show u32 (10 + 2 * t.units) = 10 + 2 * t.units by unfold u32; omega,
    wideText_at a6 ha (by omega), Res.bind_ok,
    show u32 (10 + 2 * t.units + 2 * a.units) = 10 + 2 * t.units + 2 * a.units by unfold u32; omega,
    wideText_at a7 hc (by omega), Res.bind_ok,
    show u32 (10 + 2 * t.units + 2 * a.units + 2 * c.units) = 10 + 2 * t.units + 2 * a.units + 2 * c.units by
      unfold u32; omega,
    wideText_at a8 hd (by omega), Res.bind_ok,
    show u32 (10 + 2 * t.units + 2 * a.units + 2 * c.units + 2 * d.units) =
      10 + 2 * t.units + 2 * a.units + 2 * c.units + 2 * d.units by unfold u32; omega,
    wideText_at a9 hr (by omega), Res.bind_ok]

/-- What the program shows of a value. -/
theorem descriptorValue_spec {v : Value} (h : v.Valid) (hb : v.stored.length < 2 ^ 16) :
    descriptorValue Abi.windows v.code v.stored = .ok (v.shown program) := by
  cases v with
  | text t =>
    show wideText Abi.windows t.stored 0 (t.stored.length / 2) = _
    exact wideText_at (at_self _) h.1 (by rw [stored_length]; omega)
  | bytes b => exact congrArg Res.ok (bin2hex_hexText b)
  | bool b => cases b <;> rfl
  | dword n =>
    show (ReadUInt (leBytes 4 n) (leBytes 4 n).length 0 >>= fun n => Res.ok (dec n)) = _
    have hl : (leBytes 4 n).length = 4 := leBytes_length ..
    have : ReadUInt (leBytes 4 n) (leBytes 4 n).length 0 = .ok (bigEndian (leBytes 4 n)) := by
      obtain ⟨a, b, c, d, e⟩ := length_four hl
      rw [e]
      exact Props.C19_uint_reversed_partial [a, b, c, d] 4 0 false a b c d (at_self _) (by omega) (by omega)
    rw [this, Res.bind_ok]
    rfl
  | qword n =>
    show (ReadULongLong (leBytes 8 n) (leBytes 8 n).length 0 >>= fun n => Res.ok (dec n)) = _
    rw [llong_at (at_self _) h (by rw [leBytes_length]; omega), Res.bind_ok]
    rfl
  | word n =>
    show (ReadUShort (leBytes 2 n) (leBytes 2 n).length 0 >>= fun n => Res.ok (dec n)) = _
    rw [ushort_at (at_self _) h (by rw [leBytes_length]; omega), Res.bind_ok]
    rfl

theorem value_code_lt (v : Value) : v.code < 2 ^ 16 := by
  cases v <;> simp [Value.code]

theorem value_length {v : Value} (h : v.Valid) : v.stored.length < 2 ^ 16 := by
  cases v with
  | text t => show t.stored.length < _; rw [stored_length]; exact h.1.2
  | bytes b => exact h
  | bool b => show (leBytes 4 _).length < _; rw [leBytes_length]; omega
  | dword n => show (leBytes 4 _).length < _; rw [leBytes_length]; omega
  | qword n => show (leBytes 8 _).length < _; rw [leBytes_length]; omega
  | word n => show (leBytes 2 _).length < _; rw [leBytes_length]; omega

/-- What the program keeps of an attribute. -/
def keptAttr (a : Attr) : ContentDescriptor :=
  { totalSize := a.stored.length, Name := a.name.chars, Value := a.value.shown program }

theorem attr_length (a : Attr) : a.stored.length = 6 + 2 * a.name.units + a.value.stored.length := by
  simp [Attr.stored, leBytes_length, stored_length]; omega

theorem attr_spec {b : Bytes} {off room : Nat} {a : Attr} (h : At b off a.stored) (ha : a.Valid)
    (hb : b.length < 2 ^ 32) (hr : b.length ≤ room) :
    ContentDescriptor.new Abi.windows room b b.length off = .ok (keptAttr a) := by
  have hl := h.length_le
  rw [attr_length] at hl
  have h0 := h
  unfold Attr.stored at h0
  simp only [List.append_assoc] at h0
  obtain ⟨a0, h0⟩ := at_append h0
  obtain ⟨a1, h0⟩ := at_append h0
  obtain ⟨a2, h0⟩ := at_append h0
  obtain ⟨a3, a4⟩ := at_append h0
  simp only [leBytes_length, stored_length] at a1 a2 a3 a4
  have v1 := ha.1.2
  have v2 := value_length ha.2.2
  unfold ContentDescriptor.new
  dsimp only
  rw [ushort_at a0 v1 hb, Res.bind_ok, show u32 (off + 2) = off + 2 by unfold u32; omega,
    wideText_at a1 ha.1 (by omega), Res.bind_ok,
    show u32 (off + 2 + 2 * a.name.units) = off + 2 + 2 * a.name.units by unfold u32; omega,
    ushort_at a2 (value_code_lt _) hb, Res.bind_ok,
    show u32 (off + 2 + 2 * a.name.units + 2) = off + 2 + 2 * a.name.units + 2 by unfold u32; omega,
    ushort_at a3 v2 hb, Res.bind_ok,
    show u32 (off + 2 + 2 * a.name.units + 2 + 2) = off + 2 + 2 * a.name.units + 2 + 2 by unfold u32; omega,
    readBuffer_at a4 rfl hb hr, Res.bind_ok, descriptorValue_spec ha.2.2 v2, Res.bind_ok]
  unfold keptAttr
  rw [attr_length]
  congr 2
  unfold sub32 u32
  omega

theorem attrs_spec {b : Bytes} {room : Nat} (hb : b.length < 2 ^ 32) (hr : b.length ≤ room) (as : List Attr) :
    ∀ (off : Nat) (acc : List ContentDescriptor), At b off (as.flatMap Attr.stored) → (∀ a ∈ as, a.Valid) →
    descriptorLoop Abi.windows room b b.length as.length off acc = .ok (acc ++ as.map keptAttr) := by
  induction as with
  | nil => intro off acc _ _; simp [descriptorLoop]
  | cons a as ih =>
    intro off acc h ha
    rw [List.flatMap_cons] at h
    obtain ⟨h1, h2⟩ := at_append h
    rw [List.length_cons, descriptorLoop, attr_spec h1 (ha a (by simp)) hb hr, Res.bind_ok]
    have hl := h1.length_le
    have e : u32 (off + (keptAttr a).totalSize) = off + a.stored.length := by
      show u32 (off + a.stored.length) = _
      unfold u32; omega
    rw [e, ih _ _ h2 fun x hx => ha x (by simp [hx])]
    simp

/-- What the program keeps of a codec. -/
def keptCodec (c : Codec) : CodecEntry :=
  { totalSize := c.stored.length, type := c.type, Name := c.name.chars, Description := c.desc.chars, info := c.info }

theorem codec_length (c : Codec) : c.stored.length = 8 + 2 * c.name.units + 2 * c.desc.units + c.info.length := by
  simp [Codec.stored, leBytes_length, stored_length]; omega

theorem codec_spec {b : Bytes} {off room : Nat} {c : Codec} (h : At b off c.stored) (hc : c.Valid)
    (hb : b.length < 2 ^ 32) (hr : b.length ≤ room) :
    CodecEntry.new Abi.windows room b b.length off = .ok (keptCodec c) := by
  have hl := h.length_le
  rw [codec_length] at hl
  have h0 := h
  unfold Codec.stored at h0
  simp only [List.append_assoc] at h0
  obtain ⟨a0, h0⟩ := at_append h0
  obtain ⟨a1, h0⟩ := at_append h0
  obtain ⟨a2, h0⟩ := at_append h0
  obtain ⟨a3, h0⟩ := at_append h0
  obtain ⟨a4, h0⟩ := at_append h0
  obtain ⟨a5, a6⟩ := at_append h0
  simp only [leBytes_length, stored_length] at a1 a2 a3 a4 a5 a6
  obtain ⟨v1, v2, v3, v4⟩ := hc
  have w2 := v2.2
  have w3 := v3.2
  unfold CodecEntry.new
  dsimp only
  rw [ushort_at a0 v1 hb, Res.bind_ok, show u32 (off + 2) = off + 2 by unfold u32; omega,
    ushort_at a1 (by omega) hb, Res.bind_ok, show u32 (off + 2 + 2) = off + 2 + 2 by unfold u32; omega,
    wideText_at a2 v2 rfl, Res.bind_ok,
    show u32 (off + 2 + 2 + c.name.units * 2) = off + 2 + 2 + 2 * c.name.units by unfold u32; omega,
    ushort_at a3 (by omega) hb, Res.bind_ok,
    show u32 (off + 2 + 2 + 2 * c.name.units + 2) = off + 2 + 2 + 2 * c.name.units + 2 by unfold u32; omega,
    wideText_at a4 v3 rfl, Res.bind_ok,
    show u32 (off + 2 + 2 + 2 * c.name.units + 2 + c.desc.units * 2) =
      off + 2 + 2 + 2 * c.name.units + 2 + 2 * c.desc.units by unfold u32; omega,
    ushort_at a5 v4 hb, Res.bind_ok,
    show u32 (off + 2 + 2 + 2 * c.name.units + 2 + 2 * c.desc.units + 2) =
      off + 2 + 2 + 2 * c.name.units + 2 + 2 * c.desc.units + 2 by unfold u32; omega,
    readBuffer_at a6 rfl hb hr, Res.bind_ok]
  unfold keptCodec
  rw [codec_length]
  congr 2
  unfold sub32 u32
  omega

theorem codecs_spec {b : Bytes} {room : Nat} (hb : b.length < 2 ^ 32) (hr : b.length ≤ room) (cs : List Codec) :
    ∀ (off : Nat) (acc : List CodecEntry), At b off (cs.flatMap Codec.stored) → (∀ c ∈ cs, c.Valid) →
    codecLoop Abi.windows room b b.length cs.length off acc = .ok (acc ++ cs.map keptCodec) := by
  induction cs with
  | nil => intro off acc _ _; simp [codecLoop]
  | cons a cs ih =>
    intro off acc h ha
    rw [List.flatMap_cons] at h
    obtain ⟨h1, h2⟩ := at_append h
    rw [List.length_cons, codecLoop, codec_spec h1 (ha a (by simp)) hb hr, Res.bind_ok]
    have hl := h1.length_le
    have e : u32 (off + (keptCodec a).totalSize) = off + a.stored.length := by
      show u32 (off + a.stored.length) = _
      unfold u32; omega
    rw [e, ih _ _ h2 fun x hx => ha x (by simp [hx])]
    simp

end Fileid.Asf
