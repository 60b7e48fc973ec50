import Verif.Props.Exec
import Verif.Props.Output
import Verif.Props.Readers

/-!
# Mach-O, RIFF, MP4 and DWG files (C30 - C33) and the documents written for extractor items (C25, C26)
-/

namespace Fileid.Props

open Common Spec Exec Tables Media

/-! ## C30 Mach-O -/

theorem macho_eq (content : Bytes) (hlen : content.length < 2 ^ 32) (h28 : 28 ≤ content.length) :
    MachO.DetailerInfo (some content) =
      let f := fun off => leVal ((content.drop off).take 4)
      .ok { base := { Extension := b!"o", VersionName := intToHex 4 (f 0), Version := u16 (f 0) }
            CpuType := MachO.cpuType2String (f 4)
            CpuSubType := MachO.cpuSubType2String (f 4) (f 8)
            NumberLoadCommands := f 16
            SizeLoadCommands := f 20 } := by
  unfold MachO.DetailerInfo
  dsimp only
  have e : ∀ off, off + 4 ≤ 28 →
      field (((content.take 2048).drop 0).take 28) off 4 = leVal ((content.drop off).take 4) := by
    intro off h
    have := field_copy content 2048 0 28 off 4 h (by omega)
    rwa [Nat.zero_add] at this
  rw [readFile_some content 2048 hlen, rdRange_ok (by rw [List.length_take]; omega), Res.bind_ok,
    e 0 (by omega), e 4 (by omega), e 8 (by omega), e 16 (by omega), e 20 (by omega)]
  rfl

/-- C30, names: the cpu type name is the one listed for the number, and empty for other numbers. -/
theorem C30_cpu_names : Realises machoCpus [] MachO.cpuType2String :=
  realises_lookup machoCpuTypes machoCpus [] (by decide +kernel) (by decide +kernel)

/-- C30 for headers in little-endian byte order: the cpu type name is that of the cputype field, the load
command numbers are those of the header, and the magic number is shown as hexadecimal number of eight digits.
Missing: headers in big-endian byte order, whose fields are misread (`C30_big_endian_misread`), and files
shorter than the header (`C30_in_bounds_iff_partial`). -/
theorem C30_little_endian_partial (content magic : Bytes) (hlen : content.length < 2 ^ 32)
    (h28 : 28 ≤ content.length) (_ : At content 0 magic) (_ : machoBigEndian magic = some false)
    (cpu n size : Nat) (hc : Num content 4 4 cpu) (hn : Num content 16 4 n) (hs : Num content 20 4 size)
    (m : Nat) (hmn : Num content 0 4 m) :
    ∃ info, MachO.DetailerInfo (some content) = .ok info ∧ info.base.Extension = b!"o" ∧
      info.CpuType = nameOf machoCpus [] cpu ∧ info.NumberLoadCommands = n ∧ info.SizeLoadCommands = size ∧
      ∃ ds, info.base.VersionName = b!"0x" ++ ds ∧ ds.length = 8 ∧ readNumeral 16 ds = some m := by
  refine ⟨_, macho_eq content hlen h28, rfl, ?_, hn.eq.symm, hs.eq.symm, ?_⟩
  · show MachO.cpuType2String (leVal ((content.drop 4).take 4)) = _
    rw [← hc.eq]; exact nameOf_eq _ _ _ C30_cpu_names cpu
  · obtain ⟨ds, h1, h2, _, h4⟩ := C09_int_to_hex 4 m (by omega) hmn.lt
    refine ⟨ds, ?_, h2, h4⟩
    show intToHex 4 (leVal ((content.drop 0).take 4)) = _
    rw [← hmn.eq]; exact h1

/-- A 64-bit x86 header. -/
def sampleMachO : Bytes :=
  [0xCF, 0xFA, 0xED, 0xFE, 7, 0, 0, 1, 3, 0, 0, 0, 2, 0, 0, 0, 15, 0, 0, 0, 0, 8, 0, 0, 0, 0, 0, 0]

example : machoBigEndian [0xCF, 0xFA, 0xED, 0xFE] = some false ∧ At sampleMachO 0 [0xCF, 0xFA, 0xED, 0xFE] ∧
    Num sampleMachO 4 4 0x1000007 ∧ nameOf machoCpus [] 0x1000007 = b!"X86_64" :=
  ⟨by decide, by decide, ⟨[7, 0, 0, 1], by decide, rfl, by decide⟩, by decide⟩

/-- C30 is false of the code for big-endian headers: the header of a PowerPC program is reported without a
cpu type, because its fields are read least significant byte first. -/
theorem C30_big_endian_misread :
    ¬ ∀ (content magic : Bytes) (cpu : Nat), content.length < 2 ^ 32 → 28 ≤ content.length →
      At content 0 magic → machoBigEndian magic = some true → NumBE content 4 4 cpu →
      ∃ info, MachO.DetailerInfo (some content) = .ok info ∧ info.CpuType = nameOf machoCpus [] cpu := by
  intro h
  obtain ⟨info, h1, h2⟩ := h ([0xFE, 0xED, 0xFA, 0xCE, 0, 0, 0, 18] ++ List.replicate 20 0)
    [0xFE, 0xED, 0xFA, 0xCE] 18 (by decide) (by decide) (by decide) (by decide)
    ⟨[0, 0, 0, 18], by decide, rfl, by decide⟩
  rw [macho_eq _ (by decide) (by decide)] at h1
  injection h1 with h1
  rw [← h1] at h2
  revert h2; decide +kernel

/-- C30, bounds, exactly when they fail: inspection leaves the bytes of the file if and only if the file has
fewer than 28 bytes. -/
theorem C30_in_bounds_iff_partial (content : Bytes) (hlen : content.length < 2 ^ 32) :
    (MachO.DetailerInfo (some content)).isUB = true ↔ content.length < 28 := by
  by_cases h : content.length < 28
  · refine ⟨fun _ => h, fun _ => ?_⟩
    unfold MachO.DetailerInfo
    dsimp only
    rw [readFile_some content 2048 hlen, rdRange_ub (by rw [List.length_take]; omega)]
    rfl
  · rw [macho_eq content hlen (by omega)]
    simp [Res.isUB, h]

/-- C30 is false of the program: a file holding only the four bytes of the magic number makes the whole run
read outside them. -/
theorem C30_short_file_ub (abi : Abi) (other : Dispatch) :
    reportItems (dispatch abi other) (some [0xFE, 0xED, 0xFA, 0xCE]) = .ub .oobRead := by
  unfold reportItems
  rw [C02_identification _ _ (by decide)]
  have hf : (Magic.table.filter fun mi => decide (At [0xFE, 0xED, 0xFA, 0xCE] mi.offset mi.magic)).map
      (·.extraFunc) = [some .Exec_MachO_Detailer] := by decide +kernel
  generalize (Magic.table.filter fun mi => decide (At [0xFE, 0xED, 0xFA, 0xCE] mi.offset mi.magic)) = rows at hf
  rw [List.map_eq_singleton_iff] at hf
  obtain ⟨r, rfl, hr⟩ := hf
  have : MachO.DetailerInfo (some [0xFE, 0xED, 0xFA, 0xCE]) = .ub .oobRead := rfl
  simp [collect, contribution, hr, dispatch, MachO.Detailer, this]

/-! ## C31 RIFF -/

theorem riff_tags : ∀ k ∈ riffKinds, ∀ k' ∈ riffKinds, k.1 = k'.1 → k = k' := by decide
theorem riff_tag_length : ∀ k ∈ riffKinds, k.1.length = 8 := by decide

theorem at_same {content : Bytes} {off : Nat} {a b : Bytes} (ha : At content off a) (hb : At content off b)
    (hl : a.length = b.length) : a = b := by
  have h1 := ha.eq_take_drop
  have h2 := hb.eq_take_drop
  rw [hl] at h1
  exact h1.symm.trans h2

theorem riffExtension_eq (buffer : Bytes) (hlen : buffer.length < 2 ^ 63) :
    riffExtension buffer = .ok (
      if At buffer 8 b!"CDDAfmt " then b!"cda" else if At buffer 8 b!"WAVEfmt " then b!"wav"
      else if At buffer 8 b!"AVI LIST" then b!"avi" else if At buffer 8 b!"QLCMfmt " then b!"qcp"
      else if At buffer 8 b!"RMIDdata" then b!"rmi" else b!"riff") := by
  have h := fun m : Bytes => checkMagic_eq buffer m 8 hlen (by omega)
  unfold riffExtension
  have e1 := h magic_cda
  have e2 := h magic_wav
  have e3 := h magic_avi
  have e4 := h magic_qcp
  have e5 := h magic_rmi
  simp only [show magic_cda.length = 8 from rfl, show magic_wav.length = 8 from rfl,
    show magic_avi.length = 8 from rfl, show magic_qcp.length = 8 from rfl,
    show magic_rmi.length = 8 from rfl] at e1 e2 e3 e4 e5
  simp only [e1, e2, e3, e4, e5, Res.bind_ok, decide_eq_true_eq]
  rw [show magic_cda = b!"CDDAfmt " from rfl, show magic_wav = b!"WAVEfmt " from rfl,
    show magic_avi = b!"AVI LIST" from rfl, show magic_qcp = b!"QLCMfmt " from rfl,
    show magic_rmi = b!"RMIDdata" from rfl]
  repeat (split; · rfl)
  rfl

/-- C31: for every buffer there is exactly one answer, without out-of-bounds read: the extension of the kind
whose tag stands at offset 8, and `riff` if no tag stands there. -/
theorem C31_riff_kind (buffer : Bytes) (hlen : buffer.length < 2 ^ 63) :
    ∃ ext, RIFFHelper buffer = .ok [Item.generic { Extension := ext }] ∧
      (∀ k ∈ riffKinds, At buffer 8 k.1 → ext = k.2) ∧
      ((∀ k ∈ riffKinds, ¬ At buffer 8 k.1) → ext = b!"riff") := by
  refine ⟨_, by unfold RIFFHelper; rw [riffExtension_eq buffer hlen, Res.bind_ok], ?_, ?_⟩
  · intro k hk hat
    have key : ∀ k' ∈ riffKinds, At buffer 8 k'.1 → k' = k := fun k' hk' hat' =>
      riff_tags k' hk' k hk (at_same hat' hat (by rw [riff_tag_length k hk, riff_tag_length k' hk']))
    by_cases h1 : At buffer 8 b!"CDDAfmt "
    · rw [if_pos h1, ← key (b!"CDDAfmt ", b!"cda") (by decide) h1]
    rw [if_neg h1]
    by_cases h2 : At buffer 8 b!"WAVEfmt "
    · rw [if_pos h2, ← key (b!"WAVEfmt ", b!"wav") (by decide) h2]
    rw [if_neg h2]
    by_cases h3 : At buffer 8 b!"AVI LIST"
    · rw [if_pos h3, ← key (b!"AVI LIST", b!"avi") (by decide) h3]
    rw [if_neg h3]
    by_cases h4 : At buffer 8 b!"QLCMfmt "
    · rw [if_pos h4, ← key (b!"QLCMfmt ", b!"qcp") (by decide) h4]
    rw [if_neg h4]
    by_cases h5 : At buffer 8 b!"RMIDdata"
    · rw [if_pos h5, ← key (b!"RMIDdata", b!"rmi") (by decide) h5]
    exfalso
    simp only [riffKinds, List.mem_cons, List.not_mem_nil, or_false] at hk
    rcases hk with rfl | rfl | rfl | rfl | rfl <;> contradiction
  · intro hn
    rw [if_neg (hn _ (by decide : (b!"CDDAfmt ", b!"cda") ∈ riffKinds)),
      if_neg (hn _ (by decide : (b!"WAVEfmt ", b!"wav") ∈ riffKinds)),
      if_neg (hn _ (by decide : (b!"AVI LIST", b!"avi") ∈ riffKinds)),
      if_neg (hn _ (by decide : (b!"QLCMfmt ", b!"qcp") ∈ riffKinds)),
      if_neg (hn _ (by decide : (b!"RMIDdata", b!"rmi") ∈ riffKinds))]

/-- C31: fewer than sixteen bytes are always plain `riff`. -/
theorem C31_short_is_riff (buffer : Bytes) (h : buffer.length < 16) :
    RIFFHelper buffer = .ok [Item.generic { Extension := b!"riff" }] := by
  obtain ⟨ext, h1, _, h3⟩ := C31_riff_kind buffer (by omega)
  rw [h1, h3]
  intro k hk hat
  have := hat.length_le
  rw [riff_tag_length k hk] at this
  omega

example : At (b!"RIFF" ++ [36, 0, 0, 0] ++ b!"WAVEfmt " ++ [16, 0]) 8 b!"WAVEfmt " := by decide

/-! ## C32 MP4 -/

/-- C32, exactly: with at least sixteen bytes the brand code is the four bytes at offset 8 (after `ftyp`);
with fewer than fifteen an exception is thrown (which `main` does not catch); with fifteen a byte outside the
buffer is read. -/
theorem C32_mp4_outcome_partial (buffer : Bytes) :
    (16 ≤ buffer.length → ∀ brand, At buffer 8 brand → brand.length = 4 →
      ∃ info, mp4DetailerInfo buffer = .ok info ∧ info.BrandCode = brand ∧ info.base.Extension = b!"mp4") ∧
    (buffer.length < 15 → mp4DetailerInfo buffer = .throw .rangeError) ∧
    (buffer.length = 15 → mp4DetailerInfo buffer = .ub .oobRead) := by
  refine ⟨?_, ?_, ?_⟩
  · intro h brand hat hl
    unfold mp4DetailerInfo ReadUInt
    rw [if_neg (by unfold u32; omega)]
    simp only [show u32 (12 + 1) = 13 from rfl, show u32 (12 + 2) = 14 from rfl, show u32 (12 + 3) = 15 from rfl]
    rw [rd_lt (show 12 < buffer.length by omega), rd_lt (show 13 < buffer.length by omega),
      rd_lt (show 14 < buffer.length by omega), rd_lt (show 15 < buffer.length by omega)]
    simp only [Res.bind_ok, Bool.false_eq_true, if_false]
    rw [rdRange_of_at hat hl.symm]
    exact ⟨_, rfl, rfl, rfl⟩
  · intro h
    unfold mp4DetailerInfo ReadUInt
    rw [if_pos (by unfold u32; omega)]
    rfl
  · intro h
    unfold mp4DetailerInfo ReadUInt
    rw [if_neg (by unfold u32; omega)]
    simp only [show u32 (12 + 1) = 13 from rfl, show u32 (12 + 2) = 14 from rfl, show u32 (12 + 3) = 15 from rfl]
    rw [rd_lt (show 12 < buffer.length by omega), rd_lt (show 13 < buffer.length by omega),
      rd_lt (show 14 < buffer.length by omega), rd_ge (show buffer.length ≤ 15 by omega)]
    rfl

example : At ([0, 0, 0, 24] ++ b!"ftypisom" ++ [0, 0, 2, 0]) 8 b!"isom" := by decide

/-- C32 is false of the program: the eight bytes of an `ftyp` box header alone end the whole run with an
uncaught exception. -/
theorem C32_short_file_throws (abi : Abi) (other : Dispatch) :
    reportItems (dispatch abi other) (some ([0, 0, 0, 8] ++ b!"ftyp")) = .throw .rangeError := by
  unfold reportItems
  rw [C02_identification _ _ (by decide)]
  have hf : (Magic.table.filter fun mi => decide (At ([0, 0, 0, 8] ++ b!"ftyp") mi.offset mi.magic)).map
      (·.extraFunc) = [some .media_mp4_Detailer] := by decide +kernel
  generalize (Magic.table.filter fun mi => decide (At ([0, 0, 0, 8] ++ b!"ftyp") mi.offset mi.magic)) = rows at hf
  rw [List.map_eq_singleton_iff] at hf
  obtain ⟨r, rfl, hr⟩ := hf
  have : mp4DetailerInfo (([0, 0, 0, 8] ++ b!"ftyp").take 65536) = .throw .rangeError :=
    (C32_mp4_outcome_partial _).2.1 (by rw [List.length_take]; simp)
  rw [collect, contribution, hr]
  simp only [dispatch, mp4Detailer]
  rw [this]
  rfl

/-! ## C33 DWG -/

theorem dwg_names : ∀ a b : UInt8, dwgVersionName a b = nameOf dwgReleases [] [a, b] := by
  intro a b
  unfold dwgVersionName
  simp only [nameOf, dwgReleases, List.cons.injEq, and_true, eq_comm (b := a), eq_comm (b := b)]
  by_cases h0 : a = 0x30
  · subst h0; simp
  · by_cases h1 : a = 0x31
    · subst h1; simp
    · by_cases h2 : a = 0x32
      · subst h2; simp
      · simp [h0, h1, h2]

/-- C33: the release named is the one listed for the last two characters of the six-byte version tag; every
other tag, and every file with fewer than six bytes, gets the answer without release. -/
theorem C33_dwg_release (buffer : Bytes) :
    (∀ tag, At buffer 4 tag → tag.length = 2 →
      DwgHelper buffer = .ok [Item.generic { Extension := b!"dwg", VersionName := nameOf dwgReleases [] tag }]) ∧
    (buffer.length < 6 → DwgHelper buffer = .ok [Item.generic { Extension := b!"dwg" }]) := by
  refine ⟨fun tag hat hl => ?_, fun h => ?_⟩
  · have hle := hat.length_le
    match tag, hl with
    | [a, b], _ =>
      have h0 := hat.getElem? 0 (by simp)
      have h1 := hat.getElem? 1 (by simp)
      unfold DwgHelper
      rw [if_pos (by simp at hle; omega)]
      simp only [Nat.add_zero, List.getElem?_cons_zero, List.getElem?_cons_succ, Nat.reduceAdd] at h0 h1
      simp only [rd, h0, h1, Res.bind_ok, dwg_names]
  · unfold DwgHelper
    rw [if_neg (by omega)]

example : At b!"AC1015" 4 b!"15" ∧ nameOf dwgReleases [] b!"15" = b!"AutoCAD R2000" := by decide

/-! ## C25, C26 for the items of these extractors -/

theorem jsonPlain_xmlPlain_hex (w n : Nat) :
    jsonPlain (intToHex w n) = true ∧ xmlPlain (intToHex w n) = true := by
  have h : ∀ c ∈ intToHex w n, (48 ≤ c ∧ c ≤ 57) ∨ (97 ≤ c ∧ c ≤ 122) := by
    intro c hc
    unfold intToHex at hc
    rw [List.mem_append] at hc
    rcases hc with hc | hc
    · simp only [List.mem_cons, List.not_mem_nil, or_false] at hc
      rcases hc with rfl | rfl <;> decide
    · have := setw0_chars (w * 2) (hexLower n) (fun c => isLowerHex c = true) (by decide) (hexLower_chars n) c hc
      simp only [isLowerHex, Bool.or_eq_true, Bool.and_eq_true, decide_eq_true_eq, UInt8.le_iff_toNat_le] at this
      simp only [UInt8.le_iff_toNat_le]
      simp at this ⊢
      omega
  constructor
  · unfold jsonPlain
    rw [List.all_eq_true]
    intro c hc
    have := h c hc
    simp only [UInt8.le_iff_toNat_le] at this
    simp only [Bool.and_eq_true, decide_eq_true_eq, bne_iff_ne, UInt8.le_iff_toNat_le]
    refine ⟨⟨⟨?_, ?_⟩, ?_⟩, ?_⟩
    · simp at this ⊢; omega
    · simp at this ⊢; omega
    · intro h; subst h; simp at this
    · intro h; subst h; simp at this
  · unfold xmlPlain
    rw [List.all_eq_true]
    intro c hc
    have := h c hc
    simp only [UInt8.le_iff_toNat_le] at this
    simp only [Bool.and_eq_true, decide_eq_true_eq, bne_iff_ne, UInt8.le_iff_toNat_le, UInt8.lt_iff_toNat_lt]
    refine ⟨⟨⟨?_, ?_⟩, ?_⟩, ?_⟩
    · simp at this ⊢; omega
    · simp at this ⊢; omega
    · intro h; subst h; simp at this
    · intro h; subst h; simp at this

/-- Text that stands for itself in JSON strings and in XML content. -/
def plain (s : Bytes) : Bool := jsonPlain s && xmlPlain s

theorem plain_append {a b : Bytes} (ha : plain a = true) (hb : plain b = true) : plain (a ++ b) = true := by
  simp only [plain, jsonPlain, xmlPlain, Bool.and_eq_true, List.all_append] at *
  exact ⟨⟨ha.1, hb.1⟩, ha.2, hb.2⟩

theorem plain_hex (w n : Nat) : plain (intToHex w n) = true := by
  have := jsonPlain_xmlPlain_hex w n
  simp [plain, this]

theorem plain_lookup {α : Type} [DecidableEq α] (t : List (α × Bytes)) (ht : ∀ e ∈ t, plain e.2 = true) (k : α)
    (s : Bytes) (h : lookup t k = some s) : plain s = true := by
  unfold lookup at h
  rw [Option.map_eq_some_iff] at h
  obtain ⟨e, he, rfl⟩ := h
  exact ht e (List.mem_of_find?_eq_some he)

theorem plain_lookupD {α : Type} [DecidableEq α] (t : List (α × Bytes)) (ht : ∀ e ∈ t, plain e.2 = true) (d : Bytes)
    (hd : plain d = true) (k : α) : plain ((lookup t k).getD d) = true := by
  cases h : lookup t k with
  | none => exact hd
  | some s => exact plain_lookup t ht k s h

theorem macho_subTables : ∀ c, ∀ e ∈ MachO.subTable c, plain e.2 = true := by
  intro c
  unfold MachO.subTable
  split <;> decide +kernel

theorem plain_cpu (c : Nat) : plain (MachO.cpuType2String c) = true :=
  plain_lookupD machoCpuTypes (by decide +kernel) [] (by decide) c

theorem plain_sub (c s : Nat) : plain (MachO.cpuSubType2String c s) = true := by
  unfold MachO.cpuSubType2String
  split
  · rename_i t h; exact plain_lookup _ (macho_subTables c) _ _ h
  · exact plain_append (plain_append (plain_append (by decide) (by decide)) (plain_hex _ _)) (by decide)

/-- The JSON object of a Mach-O item: one string member per field that is shown. -/
def machoJson (i : MachO.MachOInfo) : List JEvent :=
  [.startObj, .key (chars b!"extension"), .str (chars i.base.Extension), .key (chars b!"name"),
    .str (chars i.base.VersionName)] ++
  (if i.CpuType.length > 0 then [.key (chars b!"CpuType"), .str (chars i.CpuType)] else []) ++
  (if i.CpuSubType.length > 0 then [.key (chars b!"CpuSubType"), .str (chars i.CpuSubType)] else []) ++
  (if i.FileType.length > 0 then [.key (chars b!"FileType"), .str (chars i.FileType)] else []) ++
  [.key (chars b!"NumberLoadCommands"), .str (chars (dec i.NumberLoadCommands))] ++
  [.key (chars b!"SizeLoadCommands"), .str (chars (dec i.SizeLoadCommands))] ++
  (if i.Flags.length > 0 then [.key (chars b!"Flags"), .str (chars i.Flags)] else []) ++ [.endObj]

/-- The fields of a Mach-O item that are written without escaping. -/
def machoPlain (i : MachO.MachOInfo) : Prop :=
  plain i.base.Extension = true ∧ plain i.base.VersionName = true ∧ plain i.CpuType = true ∧
    plain i.CpuSubType = true ∧ plain i.FileType = true ∧ plain i.Flags = true

theorem plain_json {s : Bytes} (h : plain s = true) : jsonBody s = some (chars s) :=
  jsonBody_plain s (by simp only [plain, Bool.and_eq_true] at h; exact h.1)

theorem plain_xml {s : Bytes} (h : plain s = true) : xmlPlain s = true := by
  simp only [plain, Bool.and_eq_true] at h; exact h.2

theorem machoJson_denotes (i : MachO.MachOInfo) (h : machoPlain i) : DenotesJson i.item (machoJson i) := by
  obtain ⟨hE, hV, hC, hS, hF, hG⟩ := h
  intro stack
  have first : ∀ m, m = JMode.value ∨ m = JMode.valueOrEnd →
      run jsonStep (m, false :: stack) (b!"{" ++ b!"\"extension\" : \"") =
        some ((.inStr false [] false, true :: false :: stack), [.startObj, .key (chars b!"extension")]) := by
    rintro m (rfl | rfl) <;> rfl
  have ext := run_jsonStr false (true :: false :: stack) i.base.Extension _ (plain_json hE)
  have name := run_member (false :: stack) b!", \"name\" : \"" _ (chars b!"name") _ rfl (plain_json hV)
  have cpu := run_ite (false :: stack) (i.CpuType.length > 0) _ _ fun _ =>
    run_member (false :: stack) b!", \"CpuType\" : \"" _ (chars b!"CpuType") _ rfl (plain_json hC)
  have sub := run_ite (false :: stack) (i.CpuSubType.length > 0) _ _ fun _ =>
    run_member (false :: stack) b!", \"CpuSubType\" : \"" _ (chars b!"CpuSubType") _ rfl (plain_json hS)
  have ft := run_ite (false :: stack) (i.FileType.length > 0) _ _ fun _ =>
    run_member (false :: stack) b!", \"FileType\" : \"" _ (chars b!"FileType") _ rfl (plain_json hF)
  have nl := run_member (false :: stack) b!", \"NumberLoadCommands\" : \"" _ (chars b!"NumberLoadCommands") _ rfl
    (jsonBody_dec i.NumberLoadCommands)
  have sl := run_member (false :: stack) b!", \"SizeLoadCommands\" : \"" _ (chars b!"SizeLoadCommands") _ rfl
    (jsonBody_dec i.SizeLoadCommands)
  have fl := run_ite (false :: stack) (i.Flags.length > 0) _ _ fun _ =>
    run_member (false :: stack) b!", \"Flags\" : \"" _ (chars b!"Flags") _ rfl (plain_json hG)
  have fin : run jsonStep (.after, true :: false :: stack) b!"}" =
      some ((.after, false :: stack), [.endObj]) := rfl
  have go : ∀ m, m = JMode.value ∨ m = JMode.valueOrEnd →
      run jsonStep (m, false :: stack) i.item.json = some ((.after, false :: stack), machoJson i) := by
    intro m hm
    have := run_append (run_append (run_append (run_append (run_append (run_append (run_append (run_append
      (run_append (first m hm) ext) name) cpu) sub) ft) nl) sl) fl) fin
    have e1 : i.item.json = b!"{" ++ b!"\"extension\" : \"" ++ (i.base.Extension ++ [34]) ++
        (b!", \"name\" : \"" ++ i.base.VersionName ++ b!"\"") ++
        (if i.CpuType.length > 0 then b!", \"CpuType\" : \"" ++ i.CpuType ++ b!"\"" else []) ++
        (if i.CpuSubType.length > 0 then b!", \"CpuSubType\" : \"" ++ i.CpuSubType ++ b!"\"" else []) ++
        (if i.FileType.length > 0 then b!", \"FileType\" : \"" ++ i.FileType ++ b!"\"" else []) ++
        (b!", \"NumberLoadCommands\" : \"" ++ dec i.NumberLoadCommands ++ b!"\"") ++
        (b!", \"SizeLoadCommands\" : \"" ++ dec i.SizeLoadCommands ++ b!"\"") ++
        (if i.Flags.length > 0 then b!", \"Flags\" : \"" ++ i.Flags ++ b!"\"" else []) ++ b!"}" := by
      simp only [MachO.MachOInfo.item, MachO.MachOInfo.toJson, List.append_assoc]
    rw [e1]
    exact this
  exact ⟨go _ (Or.inl rfl), go _ (Or.inr rfl)⟩

/-- The XML element of a Mach-O item. -/
def machoXml (i : MachO.MachOInfo) : List XEvent :=
  elem b!"item" (elem b!"extension" (lit i.base.Extension) ++
    (if i.base.Version > 0 then elem b!"version" (lit (dec i.base.Version)) else []) ++
    (if i.base.VersionName.length > 0 then elem b!"versionname" (lit i.base.VersionName) else []) ++
    (if i.CpuType.length > 0 then elem b!"CpuType" (lit i.CpuType) else []) ++
    (if i.CpuSubType.length > 0 then elem b!"CpuSubType" (lit i.CpuSubType) else []) ++
    (if i.FileType.length > 0 then elem b!"FileType" (lit i.FileType) else []) ++
    elem b!"NumberLoadCommands" (lit (dec i.NumberLoadCommands)) ++
    elem b!"SizeLoadCommands" (lit (dec i.SizeLoadCommands)) ++
    (if i.Flags.length > 0 then elem b!"Flags" (lit i.Flags) else []))

theorem machoXml_denotes (i : MachO.MachOInfo) (h : machoPlain i) (hN : i.base.Name = [])
    (hT : i.base.SubType = []) : DenotesXml i.item (machoXml i) := by
  obtain ⟨hE, hV, hC, hS, hF, hG⟩ := h
  intro n stack
  have E := fun (name o c body : Bytes) (ho) (hb : xmlPlain body = true) (hc) =>
    run_elem b!"item" (n :: stack) name o c body (lit body) ho (run_xmlPlain _ _ body hb) hc
  have ext := E b!"extension" b!"<extension>" b!"</extension>" _ rfl (plain_xml hE) rfl
  have ver := run_iteX _ (i.base.Version > 0) _ _ fun _ =>
    E b!"version" b!"<version>" b!"</version>" _ rfl (xmlPlain_dec i.base.Version) rfl
  have vn := run_iteX _ (i.base.VersionName.length > 0) _ _ fun _ =>
    E b!"versionname" b!"<versionname>" b!"</versionname>" _ rfl (plain_xml hV) rfl
  have cpu := run_iteX _ (i.CpuType.length > 0) _ _ fun _ =>
    E b!"CpuType" b!"<CpuType>" b!"</CpuType>" _ rfl (plain_xml hC) rfl
  have sub := run_iteX _ (i.CpuSubType.length > 0) _ _ fun _ =>
    E b!"CpuSubType" b!"<CpuSubType>" b!"</CpuSubType>" _ rfl (plain_xml hS) rfl
  have ft := run_iteX _ (i.FileType.length > 0) _ _ fun _ =>
    E b!"FileType" b!"<FileType>" b!"</FileType>" _ rfl (plain_xml hF) rfl
  have nl := E b!"NumberLoadCommands" b!"<NumberLoadCommands>" b!"</NumberLoadCommands>" _ rfl
    (xmlPlain_dec i.NumberLoadCommands) rfl
  have sl := E b!"SizeLoadCommands" b!"<SizeLoadCommands>" b!"</SizeLoadCommands>" _ rfl
    (xmlPlain_dec i.SizeLoadCommands) rfl
  have fl := run_iteX _ (i.Flags.length > 0) _ _ fun _ =>
    E b!"Flags" b!"<Flags>" b!"</Flags>" _ rfl (plain_xml hG) rfl
  have inner := run_append (run_append (run_append (run_append (run_append (run_append (run_append (run_append
    ext ver) vn) cpu) sub) ft) nl) sl) fl
  have := run_elem n stack b!"item" b!"<item>" b!"</item>" _ _ rfl inner rfl
  have e1 : i.item.xml = b!"<item>" ++ (b!"<extension>" ++ i.base.Extension ++ b!"</extension>" ++
      (if i.base.Version > 0 then b!"<version>" ++ dec i.base.Version ++ b!"</version>" else []) ++
      (if i.base.VersionName.length > 0 then b!"<versionname>" ++ i.base.VersionName ++ b!"</versionname>" else []) ++
      (if i.CpuType.length > 0 then b!"<CpuType>" ++ i.CpuType ++ b!"</CpuType>" else []) ++
      (if i.CpuSubType.length > 0 then b!"<CpuSubType>" ++ i.CpuSubType ++ b!"</CpuSubType>" else []) ++
      (if i.FileType.length > 0 then b!"<FileType>" ++ i.FileType ++ b!"</FileType>" else []) ++
      (b!"<NumberLoadCommands>" ++ dec i.NumberLoadCommands ++ b!"</NumberLoadCommands>") ++
      (b!"<SizeLoadCommands>" ++ dec i.SizeLoadCommands ++ b!"</SizeLoadCommands>") ++
      (if i.Flags.length > 0 then b!"<Flags>" ++ i.Flags ++ b!"</Flags>" else [])) ++ b!"</item>" := by
    simp only [MachO.MachOInfo.item, MachO.MachOInfo.toXml, ExtInfo.buildBaseXml, hN, hT, List.length_nil,
      gt_iff_lt, Nat.lt_irrefl, if_false, List.append_nil, List.append_assoc]
  rw [e1]
  exact this

/-- The extractors whose items are covered here. -/
def SimpleExtractor (d : Magic.Detailer) : Prop :=
  d = .Exec_Detailer ∨ d = .Exec_MachO_Detailer ∨ d = .media_jpeg_Detailer ∨ d = .document_dwg_DwgHelper ∨
    d = .media_mp4_Detailer ∨ d = .media_riff_RIFFHelper

def ExecBase (e : ExtInfo) : Prop :=
  e = { Extension := b!"exe", VersionName := b!"Executable" } ∨
  e = { Extension := b!"dll", VersionName := b!"Dynamic Link Library" } ∨
  e = { Extension := b!"sys", VersionName := b!"Kernal Mode Executable" }

theorem exec_base (abi : Abi) (file : File) (info : ExecInfo) (h : DetailerInfo abi file = .ok info) :
    ExecBase info.base := by
  have hc : ∀ coff, ExecBase (applyCoff {} coff).base := by
    intro coff
    unfold applyCoff
    dsimp only
    split
    · right; right; split <;> rfl
    · split
      · right; left; rfl
      · left; rfl
  have hi : ∀ st buf, inspect abi st buf = .ok info → ExecBase info.base := by
    intro st buf h
    unfold inspect at h
    split at h
    · rw [rdRange_ok (by omega), Res.bind_ok] at h
      split at h
      · rw [rdRange_ok (by omega), Res.bind_ok] at h
        injection h with h
        rw [← h]; exact hc _
      · injection h with h
        rw [← h]; exact hc _
    · injection h with h
      rw [← h]; exact Or.inl rfl
  unfold DetailerInfo at h
  dsimp only at h
  by_cases hr : 0 + sizeofDos ≤ (readFile file 2048).length
  · rw [rdRange_ok hr, Res.bind_ok] at h
    exact hi _ _ h
  · rw [rdRange_ub (by omega)] at h
    cases h

/-- The items of an extractor covered here are either plain base-class items or Mach-O items. -/
theorem simple_items (abi : Abi) (other : Dispatch) (d : Magic.Detailer) (hd : SimpleExtractor d) (file : File)
    (buffer : Bytes) (hb : buffer.length < 2 ^ 63) (l : List Item) (h : dispatch abi other d file buffer = .ok l) :
    ∀ it ∈ l, (∃ e : ExtInfo, it = Item.generic e ∧ plain e.Extension = true ∧ plain e.VersionName = true ∧
        e.Name = [] ∧ e.SubType = []) ∨
      (∃ i : MachO.MachOInfo, it = i.item ∧ machoPlain i ∧ i.base.Name = [] ∧ i.base.SubType = []) := by
  intro it hit
  rcases hd with rfl | rfl | rfl | rfl | rfl | rfl
  · left
    simp only [dispatch, Exec.Detailer] at h
    cases hx : Exec.DetailerInfo abi file with
    | ok info =>
      rw [hx, Res.bind_ok] at h
      injection h with h
      subst h
      rw [List.mem_singleton] at hit
      refine ⟨info.base, hit, ?_⟩
      rcases exec_base abi file info hx with hb | hb | hb <;> rw [hb] <;> decide
    | throw e => rw [hx] at h; cases h
    | ub u => rw [hx] at h; cases h
    | fuel => rw [hx] at h; cases h
  · right
    simp only [dispatch, MachO.Detailer, MachO.DetailerInfo] at h
    by_cases hr : 0 + 28 ≤ (readFile file 2048).length
    · rw [rdRange_ok hr] at h
      simp only [Res.bind_ok] at h
      injection h with h
      subst h
      rw [List.mem_singleton] at hit
      exact ⟨_, hit, ⟨rfl, plain_hex _ _, plain_cpu _, plain_sub _ _, rfl, rfl⟩, rfl, rfl⟩
    · rw [rdRange_ub (by omega)] at h
      cases h
  · left
    simp only [dispatch, jpegDetailer] at h
    injection h with h
    subst h
    rw [List.mem_singleton] at hit
    exact ⟨_, hit, by decide, by decide, rfl, rfl⟩
  · left
    simp only [dispatch, DwgHelper] at h
    split at h
    · rw [rd_lt (show 4 < buffer.length by omega), rd_lt (show 5 < buffer.length by omega)] at h
      simp only [Res.bind_ok] at h
      injection h with h
      subst h
      rw [List.mem_singleton] at hit
      refine ⟨_, hit, rfl, ?_, rfl, rfl⟩
      rw [dwg_names]
      have key : ∀ (l : List (Bytes × Bytes)) (k : Bytes), (∀ e ∈ l, plain e.2 = true) →
          plain (nameOf l [] k) = true := by
        intro l k
        induction l with
        | nil => intro _; rfl
        | cons e es ih =>
          intro h
          rw [nameOf]
          split
          · exact h e (by simp)
          · exact ih fun e he => h e (by simp [he])
      exact key _ _ (by decide)
    · injection h with h
      subst h
      rw [List.mem_singleton] at hit
      exact ⟨_, hit, by decide, by decide, rfl, rfl⟩
  · left
    simp only [dispatch, mp4Detailer] at h
    cases hx : mp4DetailerInfo buffer with
    | ok info =>
      rw [hx, Res.bind_ok] at h
      injection h with h
      subst h
      rw [List.mem_singleton] at hit
      have : info.base = { Extension := b!"mp4", VersionName := b!"MPEG-4 Media File" } := by
        unfold mp4DetailerInfo at hx
        cases h1 : ReadUInt buffer buffer.length 12 with
        | ok v =>
          rw [h1, Res.bind_ok] at hx
          cases h2 : rdRange buffer 8 4 with
          | ok b => rw [h2, Res.bind_ok] at hx; injection hx with hx; rw [← hx]
          | throw e => rw [h2] at hx; cases hx
          | ub u => rw [h2] at hx; cases hx
          | fuel => rw [h2] at hx; cases hx
        | throw e => rw [h1] at hx; cases hx
        | ub u => rw [h1] at hx; cases hx
        | fuel => rw [h1] at hx; cases hx
      rw [this] at hit
      exact ⟨_, hit, by decide, by decide, rfl, rfl⟩
    | throw e => rw [hx] at h; cases h
    | ub u => rw [hx] at h; cases h
    | fuel => rw [hx] at h; cases h
  · left
    simp only [dispatch, RIFFHelper, riffExtension_eq buffer hb] at h
    injection h with h
    subst h
    rw [List.mem_singleton] at hit
    refine ⟨_, hit, ?_, rfl, rfl, rfl⟩
    repeat (split; · decide)
    decide

/-- C25 for extractor items: every item of the executable, Mach-O, JPEG, DWG, MP4 and RIFF extractors denotes
a JSON object whose first member is its extension. With `C25_json_document_items` the whole output is then
one JSON document. -/
theorem C25_extractor_items (abi : Abi) (other : Dispatch) (d : Magic.Detailer) (hd : SimpleExtractor d)
    (file : File) (buffer : Bytes) (hb : buffer.length < 2 ^ 63) (l : List Item)
    (h : dispatch abi other d file buffer = .ok l) :
    ∀ it ∈ l, ∃ rest, DenotesJson it
      ([.startObj, .key (chars b!"extension"), .str (chars it.info.Extension)] ++ rest) := by
  intro it hit
  rcases simple_items abi other d hd file buffer hb l h it hit with ⟨e, rfl, h1, h2, h3, h4⟩ | ⟨i, rfl, h1, _, _⟩
  · have := genericJson_denotes e (by
      simp only [plain, Bool.and_eq_true] at h1 h2
      simp only [jsonSafe, h1.1, h2.1, h3]; rfl) (by simp [h4])
    simp only [genericJson, List.append_assoc] at this
    exact ⟨_, this⟩
  · have := machoJson_denotes i h1
    simp only [machoJson, List.append_assoc] at this
    exact ⟨_, this⟩

/-- C26 for extractor items: every item of these extractors denotes one XML element `item` whose first child
is its extension. -/
theorem C26_extractor_items (abi : Abi) (other : Dispatch) (d : Magic.Detailer) (hd : SimpleExtractor d)
    (file : File) (buffer : Bytes) (hb : buffer.length < 2 ^ 63) (l : List Item)
    (h : dispatch abi other d file buffer = .ok l) :
    ∀ it ∈ l, ∃ rest, DenotesXml it (elem b!"item" (elem b!"extension" (lit it.info.Extension) ++ rest)) := by
  intro it hit
  rcases simple_items abi other d hd file buffer hb l h it hit with ⟨e, rfl, h1, h2, h3, h4⟩ | ⟨i, rfl, h1, h5, h6⟩
  · have := genericXml_denotes e (plain_xml h1) (by rw [h3]; decide) (plain_xml h2) (by rw [h4]; decide)
    simp only [genericXml, List.append_assoc] at this
    exact ⟨_, this⟩
  · have := machoXml_denotes i h1 h5 h6
    simp only [machoXml, List.append_assoc] at this
    exact ⟨_, this⟩

/-- The extractors do produce items. -/
example : ∃ l, dispatch Abi.linux (fun _ _ _ => .fuel) .Exec_MachO_Detailer (some sampleMachO) [] = .ok l ∧ l.length = 1 :=
  ⟨_, rfl, rfl⟩

end Fileid.Props
