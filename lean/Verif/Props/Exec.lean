import Verif.Lemmas.Formats
import Verif.Lemmas.Reader
import Verif.Props.Identify
import Verif.Model.Dispatch

/-!
# Executables (C28 - C30, C59 - C62)
-/

namespace Fileid.Props

open Common Spec Exec Tables

/-- The platforms the program is built for. -/
def Supported (abi : Abi) : Prop := abi = Abi.linux ∨ abi = Abi.windows

theorem sizeofOpt_cases (abi : Abi) : sizeofOpt abi = 80 ∨ sizeofOpt abi = 76 := by
  unfold sizeofOpt; split <;> simp

theorem readFile_some (content : Bytes) (m : Nat) (hlen : content.length < 2 ^ 32) :
    readFile (some content) m = content.take m := by
  rw [C06_read_prefix_modulo, Nat.mod_eq_of_lt hlen]
  rcases Nat.le_total m content.length with h | h
  · rw [Nat.min_eq_left h]
  · rw [Nat.min_eq_right h, List.take_of_length_le (Nat.le_refl _), List.take_of_length_le h]

theorem inspect_eq (abi : Abi) (start : Nat) (content : Bytes) (m : Nat) :
    inspect abi start (content.take m) =
      if start + 24 < min m content.length then
        if start + 24 + sizeofOpt abi < min m content.length then
          .ok (applyOptional (applyCoff {} ((content.drop start).take 24))
            ((content.drop (start + 24)).take (sizeofOpt abi)))
        else .ok (applyCoff {} ((content.drop start).take 24))
      else .ok {} := by
  unfold inspect
  rw [List.length_take, show sizeofCoff = 24 from rfl]
  by_cases h1 : start + 24 < min m content.length
  · rw [if_pos h1, if_pos h1, rdRange_ok (by rw [List.length_take]; omega), Res.bind_ok, List.drop_take,
      List.take_take, Nat.min_eq_left (a := 24) (b := m - start) (by omega)]
    by_cases h2 : start + 24 + sizeofOpt abi < min m content.length
    · rw [if_pos h2, if_pos h2, rdRange_ok (by rw [List.length_take]; omega), Res.bind_ok, List.drop_take,
        List.take_take, Nat.min_eq_left (a := sizeofOpt abi) (b := m - (start + 24)) (by omega)]
    · rw [if_neg h2, if_neg h2]
  · rw [if_neg h1, if_neg h1]

/-- What `DetailerInfo` does with a readable file: the COFF header is used when it ends before the file
does; the optional header only when it also ends within the first 2047 bytes. -/
theorem exec_eq (abi : Abi) (content : Bytes) (hlen : content.length ≤ 2 ^ 32 - 104) (h64 : 64 ≤ content.length)
    (start : Nat) (hs : Num content 60 4 start) :
    DetailerInfo abi (some content) =
      if start + 24 < content.length then
        if start + 24 + sizeofOpt abi < 2048 ∧ start + 24 + sizeofOpt abi < content.length then
          .ok (applyOptional (applyCoff {} ((content.drop start).take 24))
            ((content.drop (start + 24)).take (sizeofOpt abi)))
        else .ok (applyCoff {} ((content.drop start).take 24))
      else .ok {} := by
  have hlt := hs.lt
  have hso := sizeofOpt_cases abi
  unfold DetailerInfo
  dsimp only
  rw [readFile_some content 2048 (by omega), show sizeofDos = 64 from rfl, show sizeofCoff = 24 from rfl,
    rdRange_ok (by rw [List.length_take]; omega), Res.bind_ok,
    field_copy content 2048 0 64 60 4 (by omega) (by omega), show 0 + 60 = 60 from rfl, ← hs.eq]
  rw [readFile_some content _ (by omega), ← apply_ite (fun m => content.take m), inspect_eq]
  rw [List.length_take]
  by_cases hw : start + 24 + sizeofOpt abi < 2 ^ 32
  · have hu : u32 (start + 24 + sizeofOpt abi) = start + 24 + sizeofOpt abi := by unfold u32; omega
    rw [hu]
    generalize hk : (if min 2048 content.length < start + 24 + sizeofOpt abi then start + 24 + sizeofOpt abi
      else 2048) = k
    have hk' : (k = start + 24 + sizeofOpt abi ∧ min 2048 content.length < k) ∨
        (k = 2048 ∧ start + 24 + sizeofOpt abi ≤ min 2048 content.length) := by
      split at hk <;> omega
    by_cases h1 : start + 24 < content.length
    · rw [if_pos h1, if_pos (by omega)]
      by_cases h2 : start + 24 + sizeofOpt abi < 2048 ∧ start + 24 + sizeofOpt abi < content.length
      · rw [if_pos h2, if_pos (by omega)]
      · rw [if_neg h2, if_neg (by omega)]
    · rw [if_neg h1, if_neg (by omega)]
  · rw [if_neg (c := start + 24 < content.length) (by omega), if_neg]
    split <;> omega

theorem applyCoff_base (coff : Bytes) :
    (applyCoff {} coff).base.Extension = peExtension (field coff 22 2) ∧
    (applyCoff {} coff).MachineType = GetMachineTypeString (field coff 4 2) ∧
    (applyCoff {} coff).Characteristics = BuildVectorFromMap execCharacteristics (field coff 22 2) := by
  have h1 := and_bit_ne_zero (field coff 22 2) 12
  have h2 := and_bit_ne_zero (field coff 22 2) 13
  unfold applyCoff peExtension
  simp only [show (0x2000 : Nat) = 2 ^ 13 from rfl, show (0x1000 : Nat) = 2 ^ 12 from rfl]
  by_cases a : field coff 22 2 &&& 2 ^ 12 ≠ 0 <;> by_cases b : field coff 22 2 &&& 2 ^ 13 ≠ 0
  · rw [if_pos a, if_pos b, if_pos (h1.1 a)]; exact ⟨rfl, rfl, rfl⟩
  · rw [if_pos a, if_neg b, if_pos (h1.1 a)]; exact ⟨rfl, rfl, rfl⟩
  · rw [if_neg a, if_pos b, if_neg (fun h => a (h1.2 h)), if_pos (h2.1 b)]; exact ⟨rfl, rfl, rfl⟩
  · rw [if_neg a, if_neg b, if_neg (fun h => a (h1.2 h)), if_neg (fun h => b (h2.2 h))]; exact ⟨rfl, rfl, rfl⟩

theorem applyOptional_base (i : ExecInfo) (o : Bytes) :
    (applyOptional i o).base = i.base ∧ (applyOptional i o).MachineType = i.MachineType ∧
    (applyOptional i o).Characteristics = i.Characteristics := ⟨rfl, rfl, rfl⟩

/-- The information read from a complete COFF header. -/
theorem exec_coff (abi : Abi) (content : Bytes) (hlen : content.length ≤ 2 ^ 32 - 104) (start : Nat)
    (hs : Num content 60 4 start) (h64 : 64 ≤ content.length) (hc : start + 24 < content.length) :
    ∃ info, DetailerInfo abi (some content) = .ok info ∧
      info.base.Extension = peExtension (leVal ((content.drop (start + 22)).take 2)) ∧
      info.MachineType = GetMachineTypeString (leVal ((content.drop (start + 4)).take 2)) ∧
      info.Characteristics = BuildVectorFromMap execCharacteristics (leVal ((content.drop (start + 22)).take 2)) := by
  rw [exec_eq abi content hlen h64 start hs, if_pos hc]
  have e22 := field_copy content content.length start 24 22 2 (by omega) (by omega)
  have e4 := field_copy content content.length start 24 4 2 (by omega) (by omega)
  rw [List.take_length] at e22 e4
  have hb := applyCoff_base ((content.drop start).take 24)
  rw [e22, e4] at hb
  split
  · exact ⟨_, rfl, hb⟩
  · exact ⟨_, rfl, hb⟩

/-! ## C28 executable kind -/

/-- C28 for files of at most 2^32 - 104 bytes with a complete DOS header: the extension is decided by the
characteristics of the COFF header, wherever in the file it is; when the file ends before or with that
header it is `exe`. Missing: files that come within 104 bytes of 4 GiB, where the end of the headers is
computed modulo 2^32 (`C28_wraps`). -/
theorem C28_kind_partial (abi : Abi) (content : Bytes) (hlen : content.length ≤ 2 ^ 32 - 104) (start : Nat)
    (h64 : 64 ≤ content.length) (hs : Num content 60 4 start) :
    ∃ info, DetailerInfo abi (some content) = .ok info ∧
      (content.length ≤ start + 24 → info.base.Extension = b!"exe") ∧
      (start + 24 < content.length → ∀ ch, Num content (start + 22) 2 ch →
        info.base.Extension = peExtension ch) := by
  by_cases hc : start + 24 < content.length
  · obtain ⟨info, h, he, _⟩ := exec_coff abi content hlen start hs h64 hc
    refine ⟨info, h, fun h' => absurd hc (by omega), fun _ ch hch => ?_⟩
    rw [hch.eq, he]
  · refine ⟨{}, ?_, fun _ => rfl, fun h => absurd h hc⟩
    rw [exec_eq abi content hlen h64 start hs, if_neg hc]

/-- Where the end of the headers wraps: nothing beyond the DOS header is looked at. -/
theorem exec_wraps (content : Bytes) (hlen : content.length < 2 ^ 32) (h2k : 2048 ≤ content.length) (start : Nat)
    (hs : Num content 60 4 start) (hw : 2 ^ 32 ≤ start + 104) :
    DetailerInfo Abi.linux (some content) = .ok {} := by
  have hlt := hs.lt
  unfold DetailerInfo
  dsimp only
  rw [readFile_some content 2048 (by omega), show sizeofDos = 64 from rfl, show sizeofCoff = 24 from rfl,
    rdRange_ok (by rw [List.length_take]; omega), Res.bind_ok,
    field_copy content 2048 0 64 60 4 (by omega) (by omega), show 0 + 60 = 60 from rfl, ← hs.eq]
  rw [readFile_some content _ (by omega), ← apply_ite (fun m => content.take m), inspect_eq]
  rw [List.length_take, show sizeofOpt Abi.linux = 80 from rfl]
  have hu : u32 (start + 24 + 80) = start + 104 - 2 ^ 32 := by unfold u32; omega
  rw [hu, if_neg (c := min 2048 content.length < _) (by omega), if_neg (by omega)]

/-- A file of `k + 67` bytes whose DOS header points to 2^32 - 104 and whose characteristics would be found
at `k + 64`. -/
theorem nearlyFull (k : Nat) : ∃ content : Bytes, content.length = k + 67 ∧ Num content 60 4 (2 ^ 32 - 104) ∧
    Num content (k + 64) 2 0x2000 := by
  refine ⟨(List.replicate 60 (0 : UInt8) ++ [0x98, 0xFF, 0xFF, 0xFF]) ++ (List.replicate k 0 ++ [0x00, 0x20, 0]),
    ?_, ?_, ?_⟩
  · simp only [List.length_append, List.length_replicate, List.length_cons, List.length_nil]; omega
  · exact ⟨[0x98, 0xFF, 0xFF, 0xFF], ⟨_, _, rfl, by rw [List.length_replicate]⟩, rfl, by decide⟩
  · refine ⟨[0x00, 0x20], ⟨(List.replicate 60 (0 : UInt8) ++ [0x98, 0xFF, 0xFF, 0xFF]) ++
      List.replicate k 0, [0], ?_, ?_⟩, rfl, by decide⟩
    · rw [List.append_assoc, List.append_assoc, List.append_assoc]; rfl
    · simp only [List.length_append, List.length_replicate, List.length_cons, List.length_nil]; omega

/-- C28 is false of the code for files close to 4 GiB: a DLL whose COFF header stands near the end of such a
file is reported as `exe`. -/
theorem C28_wraps :
    ¬ ∀ (content : Bytes) (start ch : Nat), content.length < 2 ^ 32 → 64 ≤ content.length →
      Num content 60 4 start → start + 24 < content.length → Num content (start + 22) 2 ch →
      ∃ info, DetailerInfo Abi.linux (some content) = .ok info ∧ info.base.Extension = peExtension ch := by
  intro h
  obtain ⟨content, hl, hs, hc⟩ := nearlyFull (2 ^ 32 - 146)
  obtain ⟨info, h1, h2⟩ := h content _ _ (by omega) (by omega) hs (by omega) hc
  rw [exec_wraps content (by omega) (by omega) _ hs (by omega)] at h1
  injection h1 with h1
  rw [← h1] at h2
  revert h2; decide

/-- A DLL: DOS header with the PE header at 64, characteristics 0x2002, one byte after the COFF header. -/
def sampleDll : Bytes :=
  b!"MZ" ++ List.replicate 58 0 ++ [64, 0, 0, 0] ++ b!"PE\x00\x00" ++ [0x64, 0x86] ++ List.replicate 16 0 ++
    [0x02, 0x20] ++ [0]

example : sampleDll.length = 89 ∧ Num sampleDll 60 4 64 ∧ Num sampleDll 86 2 0x2002 ∧
    (DetailerInfo Abi.linux (some sampleDll)) =
      .ok { base := { Extension := b!"dll", VersionName := b!"Dynamic Link Library" }, MachineType := b!"x64",
            Characteristics := [b!"Executable Image", b!"DLL"] } :=
  ⟨by decide, ⟨[64, 0, 0, 0], by decide, rfl, by decide⟩, ⟨[2, 0x20], by decide, rfl, by decide⟩,
    by decide +kernel⟩

/-! ## C29 executable inspection stays inside the file -/

/-- C29, exactly when it fails: for a readable file (any length below 4 GiB) inspection leaves the bytes
obtained from the file if and only if the file has fewer than 64 bytes. Files of 64 bytes and more are
inspected without leaving them, whatever the header says. -/
theorem C29_in_bounds_iff_partial (abi : Abi) (content : Bytes) (hlen : content.length < 2 ^ 32) :
    (DetailerInfo abi (some content)).isUB = true ↔ content.length < 64 := by
  unfold DetailerInfo
  dsimp only
  rw [readFile_some content 2048 hlen, show sizeofDos = 64 from rfl]
  by_cases h : content.length < 64
  · rw [rdRange_ub (by rw [List.length_take]; omega)]
    simp [Res.isUB, h]
  · rw [rdRange_ok (by rw [List.length_take]; omega), Res.bind_ok]
    rw [readFile_some content _ hlen, ← apply_ite (fun m => content.take m), inspect_eq]
    constructor
    · intro hub
      exfalso
      have key : ∀ (p q : Prop) [Decidable p] [Decidable q] (x y z : ExecInfo),
          (if p then (if q then Res.ok x else .ok y) else .ok z).isUB = false := by
        intro p q _ _ x y z
        split
        · split <;> rfl
        · rfl
      rw [key] at hub
      cases hub
    · intro h'; exact absurd h' h

/-- C29 is false of the program: a file consisting of `MZ` alone makes the whole run read outside the
bytes of the file. -/
theorem C29_short_file_ub (abi : Abi) (other : Dispatch) :
    reportItems (dispatch abi other) (some b!"MZ") = .ub .oobRead := by
  unfold reportItems
  rw [C02_identification _ _ (by decide)]
  have hf : (Magic.table.filter fun mi => decide (At b!"MZ" mi.offset mi.magic)).map (·.extraFunc) =
      [some .Exec_Detailer] := by decide +kernel
  generalize (Magic.table.filter fun mi => decide (At b!"MZ" mi.offset mi.magic)) = rows at hf
  rw [List.map_eq_singleton_iff] at hf
  obtain ⟨r, rfl, hr⟩ := hf
  have : DetailerInfo abi (some b!"MZ") = .ub .oobRead := rfl
  simp [collect, contribution, hr, dispatch, Exec.Detailer, this]

/-! ## C59 characteristics, C60 machine and subsystem names -/

theorem execCharacteristics_bits :
    execCharacteristics = (peBitNames.zipIdx 0).map fun e => (2 ^ e.2, e.1) := by decide +kernel

/-- C59: for a file whose COFF header ends before the file does, the listed characteristics are exactly the
names of the set bits, lowest bit first. Missing: files that come within 104 bytes of 4 GiB, for which it is false
(`C59_wraps`). -/
theorem C59_characteristics_partial (abi : Abi) (content : Bytes) (hlen : content.length ≤ 2 ^ 32 - 104)
    (start ch : Nat) (h64 : 64 ≤ content.length) (hs : Num content 60 4 start) (hc : start + 24 < content.length)
    (hch : Num content (start + 22) 2 ch) :
    ∃ info, DetailerInfo abi (some content) = .ok info ∧ info.Characteristics = bitNames peBitNames ch := by
  obtain ⟨info, h, _, _, he⟩ := exec_coff abi content hlen start hs h64 hc
  refine ⟨info, h, ?_⟩
  rw [he, ← hch.eq]
  unfold BuildVectorFromMap
  rw [foldl_filter_map execCharacteristics (fun e => e.1 &&& ch ≠ 0), List.nil_append,
    execCharacteristics_bits, List.filter_map, List.map_map]
  have := bitNames_eq peBitNames ch 0
  rw [Nat.shiftRight_zero] at this
  rw [this]
  congr 1
  apply List.filter_congr
  intro e _
  have hb := and_bit_ne_zero ch e.2
  rw [Nat.and_comm] at hb
  simp only [Function.comp]
  by_cases ht : ch.testBit e.2 = true
  · rw [ht, decide_eq_true (hb.2 ht)]
  · rw [decide_eq_false (fun h => ht (hb.1 h))]
    simpa using ht

/-- C59 is false of the code for files close to 4 GiB: of a DLL whose COFF header stands near the end of such a file no
characteristics are listed. -/
theorem C59_wraps :
    ∃ (content : Bytes) (start ch : Nat), content.length < 2 ^ 32 ∧ Num content 60 4 start ∧
      start + 24 < content.length ∧ Num content (start + 22) 2 ch ∧ bitNames peBitNames ch = [b!"DLL"] ∧
      ∃ info, DetailerInfo Abi.linux (some content) = .ok info ∧ info.Characteristics = [] := by
  obtain ⟨content, hl, hs, hc⟩ := nearlyFull (2 ^ 32 - 146)
  exact ⟨content, _, _, by omega, hs, by omega, hc, by decide, _, exec_wraps content (by omega) (by omega) _ hs (by omega), rfl⟩

example : bitNames peBitNames 0x2022 = [b!"Executable Image", b!"LARGE_ADDRESS_AWARE", b!"DLL"] := by decide

/-- C60, machine type: the name is that of the machine field in the PE format's list, and empty for a value
that is not in the list. -/
theorem C60_machine_names : Realises peMachines [] GetMachineTypeString :=
  realises_lookup execMachines peMachines [] (by decide +kernel) (by decide +kernel)

theorem C60_machine_partial (abi : Abi) (content : Bytes) (hlen : content.length ≤ 2 ^ 32 - 104)
    (start m : Nat) (h64 : 64 ≤ content.length) (hs : Num content 60 4 start) (hc : start + 24 < content.length)
    (hm : Num content (start + 4) 2 m) :
    ∃ info, DetailerInfo abi (some content) = .ok info ∧ info.MachineType = GetMachineTypeString m := by
  obtain ⟨info, h, _, he, _⟩ := exec_coff abi content hlen start hs h64 hc
  exact ⟨info, h, by rw [he, ← hm.eq]⟩

/-! ## C61 fields of the optional header -/

/-- A version text: reading the numbers before and after the point gives back the two fields. -/
def IsVersionText (s : Bytes) (major minor : Nat) : Prop :=
  ∃ a b, splitFirst 46 s = some (a, b) ∧ readNumeral 10 a = some major ∧ readNumeral 10 b = some minor

theorem versionText (major minor : Nat) : IsVersionText (BuildVersionString major minor) major minor :=
  ⟨dec major, dec minor, by
    unfold BuildVersionString
    rw [List.append_assoc]
    exact splitFirst_append (dec_ne major 46 (by decide)) _,
    readNumeral_dec major, readNumeral_dec minor⟩

/-- C61, where it holds: when the optional header ends within the first 2047 bytes of the file and before
the end of the file, the linker, operating system, image and subsystem versions are those of the optional
header's fields. Missing: headers that end later (`C61_header_beyond_2047`). -/
theorem C61_versions_partial (abi : Abi) (content : Bytes) (hlen : content.length ≤ 2 ^ 32 - 104)
    (start : Nat) (h64 : 64 ≤ content.length) (hs : Num content 60 4 start)
    (hc : start + 24 + 80 < content.length) (h2k : start + 24 + 80 < 2048)
    (v : Nat → Nat → Nat) (hv : ∀ off n, off + n ≤ 76 → Num content (start + 24 + off) n (v off n)) :
    ∃ info, DetailerInfo abi (some content) = .ok info ∧
      IsVersionText info.LinkerVersion (v 2 1) (v 3 1) ∧ IsVersionText info.OsVersion (v 40 2) (v 42 2) ∧
      IsVersionText info.ImageVersion (v 44 2) (v 46 2) ∧
      IsVersionText info.SubsystemVersion (v 48 2) (v 50 2) ∧ info.Win32Version = v 52 4 := by
  have hso := sizeofOpt_cases abi
  rw [exec_eq abi content hlen h64 start hs, if_pos (by omega), if_pos (by omega)]
  have e : ∀ off n, off + n ≤ 76 →
      field ((content.drop (start + 24)).take (sizeofOpt abi)) off n = v off n := by
    intro off n h
    have := field_copy content content.length (start + 24) (sizeofOpt abi) off n (by omega) (by omega)
    rw [List.take_length] at this
    rw [this, ← (hv off n h).eq]
  refine ⟨_, rfl, ?_⟩
  simp only [applyOptional]
  rw [e 2 1 (by omega), e 3 1 (by omega), e 40 2 (by omega), e 42 2 (by omega), e 44 2 (by omega),
    e 46 2 (by omega), e 48 2 (by omega), e 50 2 (by omega), e 52 4 (by omega)]
  exact ⟨versionText _ _, versionText _ _, versionText _ _, versionText _ _, rfl⟩

/-- The hypothesis `hv` can be met by every file long enough. -/
example (content : Bytes) (start : Nat) (hc : start + 24 + 80 < content.length) :
    ∃ v : Nat → Nat → Nat, ∀ off n, off + n ≤ 76 → Num content (start + 24 + off) n (v off n) :=
  ⟨fun off n => leVal ((content.drop (start + 24 + off)).take n), fun _ _ h => num_of_le (by omega)⟩

/-- C61 is false of the code: no version is reported for a file whose optional header ends at or after
byte 2048, however long the file is. -/
theorem C61_header_beyond_2047 (abi : Abi) (content : Bytes) (hlen : content.length ≤ 2 ^ 32 - 104)
    (start : Nat) (h64 : 64 ≤ content.length) (hs : Num content 60 4 start) (h2k : 2048 ≤ start + 24 + sizeofOpt abi) :
    ∃ info, DetailerInfo abi (some content) = .ok info ∧ info.LinkerVersion = [] ∧ info.OsVersion = [] ∧
      info.Subsystem = [] := by
  rw [exec_eq abi content hlen h64 start hs]
  by_cases hc : start + 24 < content.length
  · rw [if_pos hc, if_neg (by omega)]
    refine ⟨_, rfl, ?_⟩
    unfold applyCoff
    simp only []
    split <;> split <;> exact ⟨rfl, rfl, rfl⟩
  · rw [if_neg hc]; exact ⟨_, rfl, rfl, rfl, rfl⟩

/-- A file that meets the hypotheses of `C61_header_beyond_2047` and has a complete header at 2000. -/
example : ∃ content : Bytes, content.length = 4096 ∧ Num content 60 4 2000 :=
  ⟨List.replicate 60 0 ++ [0xD0, 0x07, 0, 0] ++ List.replicate 4032 0, by
    rw [List.length_append, List.length_append, List.length_replicate, List.length_replicate]; rfl,
    [0xD0, 0x07, 0, 0], ⟨List.replicate 60 0, List.replicate 4032 0, rfl, by simp⟩, rfl, by decide⟩

/-! ## C62 plain DOS programs -/

/-- C62, exactly where it holds, for files of at most 2^32 - 104 bytes: a file with a DOS header is reported as `exe` if
and only if it ends before or with the place of the COFF header, or neither bit 12 nor bit 13 is set where the
characteristics would be. Missing: programs without a PE header whose bytes have one of them set there
(`C62_signature_ignored`). -/
theorem C62_exe_iff_partial (abi : Abi) (content : Bytes) (hlen : content.length ≤ 2 ^ 32 - 104) (start : Nat)
    (h64 : 64 ≤ content.length) (hs : Num content 60 4 start) :
    ∃ info, DetailerInfo abi (some content) = .ok info ∧
      (info.base.Extension = b!"exe" ↔ content.length ≤ start + 24 ∨
        ∃ ch, Num content (start + 22) 2 ch ∧ ch.testBit 12 = false ∧ ch.testBit 13 = false) := by
  obtain ⟨info, h, h1, h2⟩ := C28_kind_partial abi content hlen start h64 hs
  refine ⟨info, h, fun he => ?_, fun hor => ?_⟩
  · by_cases hc : content.length ≤ start + 24
    · exact Or.inl hc
    · have hn : Num content (start + 22) 2 (leVal ((content.drop (start + 22)).take 2)) := num_of_le (by omega)
      refine Or.inr ⟨_, hn, ?_⟩
      have := h2 (by omega) _ hn
      rw [he] at this
      unfold peExtension at this
      split at this
      · exact absurd this (by decide)
      · split at this
        · exact absurd this (by decide)
        · rename_i a b
          exact ⟨by simpa using a, by simpa using b⟩
  · by_cases hc : content.length ≤ start + 24
    · exact h1 hc
    · rcases hor with hl | ⟨ch, hn, hb1, hb2⟩
      · exact absurd hl hc
      · rw [h2 (by omega) ch hn]
        unfold peExtension
        rw [if_neg (by simp [hb1]), if_neg (by simp [hb2])]

/-- A DOS program without anything behind its header. -/
example : ∃ info, DetailerInfo Abi.linux (some (b!"MZ" ++ List.replicate 62 0)) = .ok info ∧
    info.base.Extension = b!"exe" := by
  obtain ⟨info, h1, h2⟩ := C62_exe_iff_partial Abi.linux (b!"MZ" ++ List.replicate 62 0) (by decide) 0 (by decide)
    ⟨[0, 0, 0, 0], by decide, rfl, by decide⟩
  exact ⟨info, h1, h2.2 (Or.inr ⟨0, ⟨[0, 0], by decide, rfl, by decide⟩, by decide, by decide⟩)⟩

/-- C62 is false of the code: the signature `PE\0\0` is not looked at, so a DOS program without a PE header
whose bytes happen to have bit 12 set at the place of the characteristics is reported as `sys`. -/
theorem C62_signature_ignored :
    ¬ ∀ (abi : Abi) (content : Bytes) (start : Nat), content.length ≤ 2 ^ 32 - 104 → 64 ≤ content.length →
      Num content 60 4 start → ¬ At content start peSignature →
      ∃ info, DetailerInfo abi (some content) = .ok info ∧ info.base.Extension = b!"exe" := by
  intro h
  obtain ⟨info, h1, h2⟩ := h Abi.linux (b!"MZ" ++ List.replicate 58 0 ++ [64, 0, 0, 0] ++ List.replicate 22 0x90 ++
    [0x90, 0x90] ++ [0]) 64 (by decide) (by decide) ⟨[64, 0, 0, 0], by decide, rfl, by decide⟩ (by decide)
  have h3 : (DetailerInfo Abi.linux (some (b!"MZ" ++ List.replicate 58 0 ++ [64, 0, 0, 0] ++ List.replicate 22 0x90 ++
    [0x90, 0x90] ++ [0]))) = .ok { base := { Extension := b!"sys", VersionName := b!"Kernal Mode Executable" }, Characteristics := bitNames peBitNames 0x9090 } := by
    decide +kernel
  rw [h3] at h1
  injection h1 with h1
  rw [← h1] at h2
  revert h2; decide

end Fileid.Props
