import Verif.Props.Exec

/-!
# Office and installer versions (C34, C56, C57, C63) and the PE subsystem (C60)
-/

namespace Fileid.Props

open Common Spec Exec Tables Office

/-! ## C34 Windows Installer -/

/-- C34: the first marker of the three that occurs anywhere in the stream decides. -/
theorem C34_installer_kind (e : ExtInfo) (stream : Bytes) :
    (Occurs b!"ModuleAdminExecuteSequence" stream →
      msiDetailer e stream = { e with Extension := b!"msm", Name := b!"Microsoft Installer Merge File" }) ∧
    (¬ Occurs b!"ModuleAdminExecuteSequence" stream → Occurs b!"InstallExecuteSequence" stream →
      msiDetailer e stream = e) ∧
    (¬ Occurs b!"ModuleAdminExecuteSequence" stream → ¬ Occurs b!"InstallExecuteSequence" stream →
      Occurs b!"MsiPatchSequence" stream →
      msiDetailer e stream = { e with Extension := b!"msp", Name := b!"Microsoft Installer Patch File" }) ∧
    (¬ Occurs b!"ModuleAdminExecuteSequence" stream → ¬ Occurs b!"InstallExecuteSequence" stream →
      ¬ Occurs b!"MsiPatchSequence" stream → msiDetailer e stream = e) := by
  refine ⟨fun h1 => ?_, fun h1 h2 => ?_, fun h1 h2 h3 => ?_, fun h1 h2 h3 => ?_⟩
  all_goals
    rw [← contains_iff] at h1
    unfold msiDetailer
  · rw [if_pos h1]
  · rw [← contains_iff] at h2
    rw [if_neg h1, if_pos h2]
  · rw [← contains_iff] at h2 h3
    rw [if_neg h1, if_neg h2, if_pos h3]
  · rw [← contains_iff] at h2 h3
    rw [if_neg h1, if_neg h2, if_neg h3]

example : Occurs b!"MsiPatchSequence" (b!"xxMsiPatchSequence" ++ [0, 1]) ∧
    ¬ Occurs b!"InstallExecuteSequence" (b!"xxMsiPatchSequence" ++ [0, 1]) ∧
    ¬ Occurs b!"ModuleAdminExecuteSequence" (b!"xxMsiPatchSequence" ++ [0, 1]) := by
  refine ⟨⟨2, by decide⟩, ?_, ?_⟩ <;> rw [← contains_iff] <;> decide

/-! ## C56 Word -/

/-- C56: for every stream there is an answer without out-of-bounds read: the documented version when the
stream holds the fixed part of the FIB (154 bytes), else 65535. -/
theorem C56_word_version (stream : Bytes) :
    (154 ≤ stream.length → ∃ v, GetnFib stream = .ok v ∧ WordVersion stream v) ∧
    (stream.length < 154 → GetnFib stream = .ok 65535) := by
  refine ⟨fun h => ?_, fun h => ?_⟩
  · have hcb := num_of_le (c := stream) (off := 152) (n := 2) (by omega)
    have hn := num_of_le (c := stream) (off := 2) (n := 2) (by omega)
    generalize leVal ((stream.drop 152).take 2) = cb at hcb
    generalize leVal ((stream.drop 2).take 2) = v at hn
    have e1 : member stream 0 2 2 = .ok v := member_eq (base := 0) (by simpa using hn)
    have e2 : member stream 0 152 2 = .ok cb := member_eq (base := 0) (by simpa using hcb)
    unfold GetnFib
    dsimp only
    rw [show sizeofFib = 154 from rfl, show sizeofFib2 = 4 from rfl, if_neg (by omega), e1, Res.bind_ok, e2,
      Res.bind_ok]
    by_cases h255 : cb > 0x00FF
    · rw [if_pos h255]
      exact ⟨v, rfl, cb, hcb, Or.inr ⟨Or.inl h255, hn⟩⟩
    · rw [if_neg h255]
      have hu : u32 (154 + cb * 8) = 154 + 8 * cb := by unfold u32; omega
      rw [hu]
      by_cases hl : 154 + 8 * cb + 4 > stream.length
      · rw [if_pos hl]
        exact ⟨v, rfl, cb, hcb, Or.inr ⟨Or.inr (Or.inl hl), hn⟩⟩
      · rw [if_neg hl]
        have hc := num_of_le (c := stream) (off := 154 + 8 * cb) (n := 2) (by omega)
        have hw := num_of_le (c := stream) (off := 154 + 8 * cb + 2) (n := 2) (by omega)
        generalize leVal ((stream.drop (154 + 8 * cb)).take 2) = csw at hc
        generalize leVal ((stream.drop (154 + 8 * cb + 2)).take 2) = w at hw
        rw [member_eq (s := stream) (base := 154 + 8 * cb) (off := 0) hc, Res.bind_ok]
        by_cases hz : csw = 0
        · subst hz
          rw [if_neg (by simp)]
          exact ⟨v, rfl, cb, hcb, Or.inr ⟨Or.inr (Or.inr hc), hn⟩⟩
        · rw [if_pos hz, member_eq hw]
          exact ⟨w, rfl, cb, hcb, Or.inl ⟨by omega, csw, hc, hz, hw⟩⟩
  · unfold GetnFib
    dsimp only
    rw [show sizeofFib = 154 from rfl, if_pos h]

/-- The documented version is unique, so C56 determines the answer. -/
theorem C56_version_unique (stream : Bytes) (v w : Nat) (hv : WordVersion stream v) (hw : WordVersion stream w) :
    v = w := by
  obtain ⟨cb, hcb, hv⟩ := hv
  obtain ⟨cb', hcb', hw⟩ := hw
  have := num_unique hcb hcb'
  subst this
  rcases hv with ⟨h1, csw, h2, h3, h4⟩ | ⟨h1, h2⟩ <;> rcases hw with ⟨g1, csw', g2, g3, g4⟩ | ⟨g1, g2⟩
  · exact num_unique h4 g4
  · exfalso
    rcases g1 with g1 | g1 | g1
    · omega
    · have := h4.length_le; omega
    · exact h3 (num_unique h2 g1)
  · exfalso
    rcases h1 with h1 | h1 | h1
    · omega
    · have := g4.length_le; omega
    · exact g3 (num_unique g2 h1)
  · exact num_unique h2 g2

/-- A FIB of Word 2003: nFib 193 in the base, one pair, nFibNew 268. -/
example : WordVersion ([0xEC, 0xA5, 193, 0] ++ List.replicate 148 0 ++ [1, 0] ++ List.replicate 8 0 ++
    [2, 0, 12, 1]) 268 :=
  ⟨1, ⟨[1, 0], by decide +kernel, rfl, by decide⟩, Or.inl ⟨by decide, 2,
    ⟨[2, 0], by decide +kernel, rfl, by decide⟩, by decide, ⟨[12, 1], by decide +kernel, rfl, by decide⟩⟩⟩

/-- C56: names. -/
theorem C56_word_names : Realises wordReleases b!"Unknown" GetVersion_Word :=
  realises_lookup wordVersions wordReleases b!"Unknown" (by decide +kernel) (by decide +kernel)

/-! ## C57 PowerPoint, Publisher, Visio -/

theorem pptLayout_linux : pptLayout Abi.linux = ⟨48, 32, 72, 24⟩ := rfl
theorem pptLayout_windows : pptLayout Abi.windows = ⟨28, 16, 36, 12⟩ := rfl

/-- C57 (PowerPoint) where `unsigned long` has four bytes: the documented version whenever the current-user
stream has the 28 bytes and the document stream the 36 bytes of the two records, else 65535; no out-of-bounds
read. Missing: the makefile's platform (`C57_ppt_linux_wrong`). -/
theorem C57_ppt_windows_partial (currentUser stream : Bytes) :
    (currentUser.length < 28 → GetPptVersion Abi.windows currentUser stream = .ok 65535) ∧
    (28 ≤ currentUser.length → ∀ off, Num currentUser 16 4 off →
      (stream.length < off + 36 → GetPptVersion Abi.windows currentUser stream = .ok 65535) ∧
      (off + 36 ≤ stream.length → ∃ v, GetPptVersion Abi.windows currentUser stream = .ok v ∧
        PptVersion currentUser stream v)) := by
  refine ⟨fun h => ?_, fun h off ho => ?_⟩
  · unfold GetPptVersion
    dsimp only
    rw [pptLayout_windows, if_pos h]
  · have hlt := ho.lt
    have hu : u32 off = off := by unfold u32; omega
    unfold GetPptVersion
    dsimp only
    rw [pptLayout_windows, if_neg (by dsimp only; omega)]
    dsimp only
    rw [show Abi.windows.ulongBytes = 4 from rfl, member_eq (base := 0) (off := 16) (by simpa using ho), Res.bind_ok, hu]
    refine ⟨fun hs => if_pos hs, fun hs => ?_⟩
    rw [if_neg (by omega)]
    have hv := num_of_le (c := stream) (off := off + 12) (n := 2) (by omega)
    exact ⟨_, member_eq hv, off, ho, hv⟩

/-- C57 (PowerPoint): on neither platform is a byte outside the two streams read. -/
theorem C57_ppt_in_bounds (abi : Abi) (habi : Supported abi) (currentUser stream : Bytes) :
    ∃ v, GetPptVersion abi currentUser stream = .ok v := by
  have key : ∀ a b c d n, b + n ≤ a → d + 2 ≤ c → pptLayout abi = ⟨a, b, c, d⟩ → abi.ulongBytes = n →
      ∃ v, GetPptVersion abi currentUser stream = .ok v := by
    intro a b c d n hab hcd hl hn
    unfold GetPptVersion
    dsimp only
    rw [hl, hn]
    dsimp only
    split
    · exact ⟨_, rfl⟩
    · rw [member_ok (by omega), Res.bind_ok]
      split
      · exact ⟨_, rfl⟩
      · exact ⟨_, member_ok (by omega)⟩
  rcases habi with rfl | rfl
  · exact key 48 32 72 24 8 (by omega) (by omega) rfl rfl
  · exact key 28 16 36 12 4 (by omega) (by omega) rfl rfl

/-- A current-user stream (48 bytes) that points to offset 4 of a document stream with build 6030 there. -/
def sampleCurrentUser : Bytes := List.replicate 16 0 ++ [4, 0, 0, 0] ++ List.replicate 28 0
def samplePpt : Bytes := List.replicate 16 0 ++ [0x8E, 0x17] ++ List.replicate 60 0

example : Num sampleCurrentUser 16 4 4 ∧ 4 + 36 ≤ samplePpt.length ∧
    GetPptVersion Abi.windows sampleCurrentUser samplePpt = .ok 6030 :=
  ⟨⟨[4, 0, 0, 0], by decide, rfl, by decide⟩, by decide, by decide⟩

/-- C57 is false of the code where `unsigned long` has eight bytes: the records are read with the wrong
layout, so complete records do not give the documented version. -/
theorem C57_ppt_linux_wrong :
    ¬ ∀ (currentUser stream : Bytes) (off v : Nat), 48 ≤ currentUser.length → Num currentUser 16 4 off →
      off + 72 ≤ stream.length → PptVersion currentUser stream v →
      GetPptVersion Abi.linux currentUser stream = .ok v := by
  intro h
  have := h sampleCurrentUser samplePpt 4 6030 (by decide) ⟨[4, 0, 0, 0], by decide, rfl, by decide⟩ (by decide)
    ⟨4, ⟨[4, 0, 0, 0], by decide, rfl, by decide⟩, ⟨[0x8E, 0x17], by decide, rfl, by decide⟩⟩
  revert this
  decide

/-- C57 (Publisher), where it holds: the version is the field at offset 4, and when that is 300 the field at
offset 12 (four-byte `unsigned long`) or 16 (eight-byte), provided the stream is long enough for it. -/
theorem C57_pub_partial (abi : Abi) (stream : Bytes) (v : Nat) (hv : Num stream 4 2 v) :
    (v ≠ 300 → GetPubVersion abi stream = .ok v) ∧
    (v = 300 → ∀ w, Num stream (8 + abi.ulongBytes) 2 w → GetPubVersion abi stream = .ok w) := by
  unfold GetPubVersion
  rw [member_eq (base := 0) (off := 4) (by simpa using hv), Res.bind_ok]
  refine ⟨fun h => if_neg h, fun h w hw => ?_⟩
  rw [if_pos h]
  exact member_eq (base := 0) (by simpa [pubVersion2] using hw)

/-- C57 (Publisher), exactly when it fails: the stream is read outside if and only if it has fewer than six
bytes, or its version is 300 and it ends before the second version field. -/
theorem C57_pub_out_of_bounds_iff (abi : Abi) (stream : Bytes) :
    (GetPubVersion abi stream).isUB = true ↔
      stream.length < 6 ∨ (Num stream 4 2 300 ∧ stream.length < 10 + abi.ulongBytes) := by
  unfold GetPubVersion
  by_cases h6 : stream.length < 6
  · rw [member_ub (by omega)]
    simp [Res.isUB, h6]
  · have hv := num_of_le (c := stream) (off := 4) (n := 2) (by omega)
    generalize leVal ((stream.drop 4).take 2) = v at hv
    rw [member_eq (base := 0) (off := 4) (by simpa using hv), Res.bind_ok]
    by_cases h3 : v = 300
    · subst h3
      rw [if_pos rfl]
      by_cases hl : stream.length < 10 + abi.ulongBytes
      · rw [member_ub (by unfold pubVersion2; omega)]
        simp [Res.isUB, hv, hl]
      · rw [member_ok (by unfold pubVersion2; omega)]
        simp [Res.isUB, hl, h6]
    · rw [if_neg h3]
      have : ¬ Num stream 4 2 300 := fun h => h3 (num_unique hv h)
      simp [Res.isUB, h6, this]

/-- C57 (Visio): the version is the field at offset 26 of a stream of at least 28 bytes; shorter streams are
read outside. -/
theorem C57_visio_partial (stream : Bytes) :
    (∀ v, Num stream 26 2 v → GetVisoVersion stream = .ok v) ∧
    ((GetVisoVersion stream).isUB = true ↔ stream.length < 28) := by
  unfold GetVisoVersion
  refine ⟨fun v hv => member_eq (base := 0) (by simpa using hv), ?_⟩
  by_cases h : stream.length < 28
  · rw [member_ub (by omega)]; simp [Res.isUB, h]
  · rw [member_ok (by omega)]; simp [Res.isUB, h]

/-- C57 is false of the code for short Publisher and Visio streams: instead of a sentinel the bytes behind
the stream are read. -/
theorem C57_short_streams_ub :
    (GetPubVersion Abi.linux b!"ab").isUB = true ∧ (GetVisoVersion b!"Visio (TM) Drawing").isUB = true := by
  decide

/-- C57: names. -/
theorem C57_publisher_names : Realises publisherReleases b!"Unknown" GetVersion_Publisher :=
  realises_lookup publisherVersions publisherReleases b!"Unknown" (by decide +kernel) (by decide +kernel)
theorem C57_visio_names : Realises visioReleases b!"Unknown" GetVersion_Visio :=
  realises_lookup visioVersions visioReleases b!"Unknown" (by decide +kernel) (by decide +kernel)

/-! ## C63 PowerPoint build names -/

/-- Within ten of each other. -/
def near (a b : Nat) : Prop := a ≤ b + 10 ∧ b ≤ a + 10

theorem withinCheck_iff (v t : Nat) (h : 10 ≤ t) : withinCheck v t 10 = true ↔ near v t := by
  unfold withinCheck near
  rw [Bool.and_eq_true, decide_eq_true_eq, decide_eq_true_eq]
  omega

/-- C63, what holds for every number: the name is that of a release whose build number is within ten of it;
if there is none it is `Unknown`; zero is `Non-Office`. Missing: where two releases are that close the name
need not be that of the release with exactly this number (`C63_builds_misnamed`). -/
theorem C63_tolerance_partial (v : Nat) :
    (v = 0 → GetVersion_Powerpoint v = b!"Non-Office") ∧
    (v ≠ 0 → (∃ r ∈ pptReleases, near v r.1) → ∃ r ∈ pptReleases, near v r.1 ∧ GetVersion_Powerpoint v = r.2) ∧
    (v ≠ 0 → (∀ r ∈ pptReleases, ¬ near v r.1) → GetVersion_Powerpoint v = b!"Unknown") := by
  have hsub : ∀ e ∈ pptVersions, e ∈ pptReleases := by decide +kernel
  have hsub' : ∀ e ∈ pptReleases, e ∈ pptVersions := by decide +kernel
  have h10 : ∀ e ∈ pptVersions, 10 ≤ e.1 := by decide +kernel
  unfold GetVersion_Powerpoint
  refine ⟨fun h => if_pos h, fun h ⟨r, hr, hn⟩ => ?_, fun h hn => ?_⟩
  · rw [if_neg h]
    cases hf : pptVersions.find? fun e => withinCheck v e.1 10 with
    | none =>
      rw [List.find?_eq_none] at hf
      exact absurd ((withinCheck_iff v r.1 (h10 r (hsub' r hr))).2 hn) (hf r (hsub' r hr))
    | some e =>
      have he := List.mem_of_find?_eq_some hf
      have hw := List.find?_some hf
      exact ⟨e, hsub e he, (withinCheck_iff v e.1 (h10 e he)).1 hw, rfl⟩
  · rw [if_neg h]
    have : (pptVersions.find? fun e => withinCheck v e.1 10) = none := by
      rw [List.find?_eq_none]
      intro e he hw
      exact hn e (hsub e he) ((withinCheck_iff v e.1 (h10 e he)).1 hw)
    rw [this]; rfl

/-- C63 for every release whose build number is not within ten of an earlier one: it is named correctly. -/
theorem C63_exact_builds_partial :
    ∀ r ∈ pptReleases, r.1 ≠ 4527 → r.1 ≠ 3516 → r.1 ≠ 4208 → GetVersion_Powerpoint r.1 = r.2 := by decide +kernel

/-- C63 is false of the code: three releases get the name of another one. -/
theorem C63_builds_misnamed :
    (4527, b!"Office 2000 SP2") ∈ pptReleases ∧ GetVersion_Powerpoint 4527 = b!"Office 2007 RTM" ∧
    (3516, b!"Office 97 RTM") ∈ pptReleases ∧ GetVersion_Powerpoint 3516 = b!"Office XP SP1" ∧
    (4208, b!"Office 97 SR1") ∈ pptReleases ∧ GetVersion_Powerpoint 4208 = b!"Office XP SP2" := by decide +kernel

/-! ## C60 subsystem names -/

theorem leVal_append (a b : Bytes) : leVal (a ++ b) = leVal a + 256 ^ a.length * leVal b := by
  induction a with
  | nil => simp [leVal]
  | cons x xs ih =>
    rw [List.cons_append, leVal, leVal, ih, List.length_cons, Nat.pow_succ, Nat.mul_add, ← Nat.mul_assoc,
      Nat.mul_comm 256 (256 ^ xs.length)]
    omega

/-- C60 (subsystem), where it holds: for a header within the first 2047 bytes whose DLL characteristics field
is zero and whose subsystem number is below 10, the name is that of the PE format's list. Missing: other DLL
characteristics and the numbers from 10 on (`C60_subsystem_wrong`). -/
theorem C60_subsystem_partial (abi : Abi) (content : Bytes) (hlen : content.length ≤ 2 ^ 32 - 104)
    (start sub : Nat) (h64 : 64 ≤ content.length) (hs : Num content 60 4 start)
    (hc : start + 24 + 80 < content.length) (h2k : start + 24 + 80 < 2048)
    (hsub : Num content (start + 24 + 68) 2 sub) (hdll : Num content (start + 24 + 70) 2 0) (h10 : sub < 10) :
    ∃ info, DetailerInfo abi (some content) = .ok info ∧ info.Subsystem = nameOf peSubsystems [] sub := by
  have hso := sizeofOpt_cases abi
  rw [exec_eq abi content hlen h64 start hs, if_pos (by omega), if_pos (by omega)]
  refine ⟨_, rfl, ?_⟩
  simp only [applyOptional]
  have := field_copy content content.length (start + 24) (sizeofOpt abi) 68 4 (by omega) (by omega)
  rw [List.take_length] at this
  have h4 : leVal ((content.drop (start + 24 + 68)).take 4) = sub := by
    have e : (content.drop (start + 24 + 68)).take 4 =
        (content.drop (start + 24 + 68)).take 2 ++ (content.drop (start + 24 + 70)).take 2 := by
      rw [show (4 : Nat) = 2 + 2 from rfl, List.take_add, List.drop_drop]
    have e1 := hsub.eq
    have e2 := hdll.eq
    rw [e, leVal_append, ← e1, ← e2]
    omega
  rw [this, h4]
  have : ∀ s, s < 10 → GetSubsystemString s = nameOf peSubsystems [] s := by decide +kernel
  exact this sub h10

/-- A program with PE header at 64 and the four bytes `f` at the subsystem and DLL characteristics fields. -/
def samplePe (f : Bytes) : Bytes :=
  b!"MZ" ++ List.replicate 58 0 ++ [64, 0, 0, 0] ++ b!"PE\x00\x00" ++ List.replicate 20 0 ++
    List.replicate 68 0 ++ f ++ List.replicate 100 0

example : Num (samplePe [2, 0, 0, 0]) 60 4 64 ∧ Num (samplePe [2, 0, 0, 0]) (64 + 24 + 68) 2 2 ∧
    Num (samplePe [2, 0, 0, 0]) (64 + 24 + 70) 2 0 ∧ (samplePe [2, 0, 0, 0]).length = 260 :=
  ⟨⟨[64, 0, 0, 0], by decide +kernel, rfl, by decide⟩, ⟨[2, 0], by decide +kernel, rfl, by decide⟩,
    ⟨[0, 0], by decide +kernel, rfl, by decide⟩, by decide +kernel⟩

/-- C60 is false of the code for the subsystem: an EFI application (subsystem 10) gets no name, and neither
does a Windows GUI program (subsystem 2) with a DLL characteristics bit set. -/
theorem C60_subsystem_wrong :
    (∃ info, DetailerInfo Abi.linux (some (samplePe [10, 0, 0, 0])) = .ok info ∧ info.Subsystem = [] ∧
      Num (samplePe [10, 0, 0, 0]) (64 + 24 + 68) 2 10 ∧ nameOf peSubsystems [] 10 = b!"EFI Application") ∧
    (∃ info, DetailerInfo Abi.linux (some (samplePe [2, 0, 0x40, 0x81])) = .ok info ∧ info.Subsystem = [] ∧
      Num (samplePe [2, 0, 0x40, 0x81]) (64 + 24 + 68) 2 2 ∧ nameOf peSubsystems [] 2 = b!"Windows GUI") := by
  have key : ∀ r : Res ExecInfo, (match r with | .ok i => decide (i.Subsystem = []) | _ => false) = true →
      ∃ info, r = .ok info ∧ info.Subsystem = [] := by
    intro r h
    cases r with
    | ok i => exact ⟨i, rfl, of_decide_eq_true h⟩
    | throw e => cases h
    | ub u => cases h
    | fuel => cases h
  obtain ⟨i, h1, h2⟩ := key (DetailerInfo Abi.linux (some (samplePe [10, 0, 0, 0]))) (by decide +kernel)
  obtain ⟨j, g1, g2⟩ := key (DetailerInfo Abi.linux (some (samplePe [2, 0, 0x40, 0x81]))) (by decide +kernel)
  exact ⟨⟨i, h1, h2, ⟨[10, 0], by decide +kernel, rfl, by decide⟩, by decide⟩,
    ⟨j, g1, g2, ⟨[2, 0], by decide +kernel, rfl, by decide⟩, by decide⟩⟩

end Fileid.Props
