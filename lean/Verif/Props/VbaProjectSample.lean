import Verif.Props.VbaProject
import Verif.Props.OlessStreams
import Verif.Props.OlessSampleFalse

/-!
# A file with a VBA project as a witness for C80, C82 and C83, and projects for which C80, C81, C82 and C83 are false
-/

namespace Fileid.Props

open Spec Spec.Ole Spec.Ovba Pole Oless Vba Common

/-! ### Containers without repetitions -/

namespace Sample

/-- The data of a chunk that holds every byte as it is. -/
def literals : Nat → Bytes → Bytes
  | 0, _ => []
  | n + 1, bs => 0 :: bs.take 8 ++ (if bs.length ≤ 8 then [] else literals n (bs.drop 8))

theorem flags_literals (bs : Bytes) : Flags 0 (bs.map Token.literal) := by
  intro i t h
  rw [List.getElem?_map] at h
  cases hb : bs[i]? with
  | none => rw [hb] at h; cases h
  | some x =>
    rw [hb] at h
    cases h
    constructor
    · intro h
      rw [show (0 : UInt8).toNat = 0 from rfl, Nat.zero_testBit] at h
      cases h
    · rintro ⟨o, l, h⟩
      cases h

theorem tokens_literals (bs : Bytes) : ∀ out, TokensBytes out (bs.map Token.literal) bs (out ++ bs) := by
  induction bs with
  | nil => intro out; rw [List.append_nil]; exact .nil
  | cons b bs ih =>
    intro out
    have := TokensBytes.cons (TokenBytes.literal (d := out.length) b) (ih (out ++ [b]))
    rw [List.append_assoc, List.singleton_append] at this
    exact this

theorem chunkData_literals : ∀ n bs out, bs ≠ [] → bs.length ≤ 8 * n → ChunkData out (literals n bs) (out ++ bs) := by
  intro n
  induction n with
  | zero =>
    intro bs out h hl
    exact absurd (List.eq_nil_of_length_eq_zero (by omega)) h
  | succ n ih =>
    intro bs out h hl
    have hpos : 0 < bs.length := List.length_pos_iff.2 h
    rw [literals]
    by_cases h8 : bs.length ≤ 8
    · rw [if_pos h8, List.append_nil, List.take_of_length_le h8]
      exact .last (ts := bs.map Token.literal) (by rw [List.length_map]; omega) (by simpa using h8) (flags_literals bs) (tokens_literals bs out)
    · rw [if_neg h8]
      have hd : bs.drop 8 ≠ [] := by
        intro h0
        have := congrArg List.length h0
        rw [List.length_drop, List.length_nil] at this
        omega
      have := ChunkData.more (ts := (bs.take 8).map Token.literal) (flags := 0) (out := out)
        (by rw [List.length_map, List.length_take]; omega) (flags_literals _) (tokens_literals _ out)
        (ih (bs.drop 8) (out ++ bs.take 8) hd (by rw [List.length_drop]; omega))
      rw [List.append_assoc out, List.take_append_drop] at this
      exact this

/-- The bytes in a container of one chunk. -/
def container (bs : Bytes) : Bytes :=
  let d := literals bs.length bs
  1 :: leBytes 2 ((d.length + 2 - 3) + 3 * 2 ^ 12 + 2 ^ 15) ++ d

theorem container_spec (bs : Bytes) (h : bs ≠ []) (hl : bs.length ≤ 4096)
    (hd : (literals bs.length bs).length + 2 ≤ 4098) : Container (container bs) bs := by
  have hc := chunkData_literals bs.length bs [] h (by omega)
  rw [List.nil_append] at hc
  generalize hL : literals bs.length bs = d at *
  refine ⟨[(leBytes 2 ((d.length + 2 - 3) + 3 * 2 ^ 12 + 2 ^ 15) ++ d, bs)], ?_, ?_, ?_⟩
  · intro c hc'
    rw [List.mem_singleton] at hc'
    subst hc'
    refine Chunk.mk hc hl hd ?_
    rw [← leVal_eq]
    have : leVal (leBytes 2 (d.length + 2 - 3 + 3 * 2 ^ 12 + 2 ^ 15)) = d.length + 2 - 3 + 3 * 2 ^ 12 + 2 ^ 15 := by
      rw [leVal_leBytes]
      omega
    exact this
  · unfold container
    rw [hL]
    simp
  · simp

/-! ### The file -/

/-- A project with one module. -/
def project : ProjectInfo :=
  { name := b!"P", major := 0x5b3e1d47, minor := 7
    modules := [{ name := b!"Mod", stream := b!"Mod", streamUnits := text b!"Mod", offset := 3, isPrivate := true }] }

/-- Its source text. -/
def source : Bytes := b!"Sub Main()"

def vbaHead : Bytes := [0xcc, 0x61, 0x85, 0, 0, 0, 0, 0]
def vbaDirStream : Bytes := container project.dir
def vbaModule : Bytes := [9, 9, 9] ++ container source

/-- The mini stream: one mini sector, four, one. -/
def vbaMini : Bytes :=
  vbaHead ++ List.replicate (64 - vbaHead.length) 0 ++ vbaDirStream ++ List.replicate (256 - vbaDirStream.length) 0 ++
    vbaModule ++ List.replicate (192 - vbaModule.length) 0

def vbaFat : List Nat := [0xfffffffd, 4, 0xfffffffe, 0xfffffffe, 0xfffffffe] ++ List.replicate 123 0xffffffff
def vbaMinifat : List Nat := [0xfffffffe, 2, 3, 4, 0xfffffffe, 0xfffffffe] ++ List.replicate 122 0xffffffff


def vbaDir1 : Bytes :=
  entry (text b!"Root Entry") 5 0xffffffff 0xffffffff 1 3 512 ++ entry (text b!"VBA") 1 0xffffffff 0xffffffff 2 0 0 ++
    entry (text b!"dir") 2 3 4 0xffffffff 1 254 ++ entry (text b!"Mod") 2 0xffffffff 0xffffffff 0xffffffff 5 18

def vbaDir2 : Bytes := entry (text b!"_VBA_PROJECT") 2 0xffffffff 0xffffffff 0xffffffff 0 8 ++ List.replicate 384 0

/-- A file with the streams "/VBA/_VBA_PROJECT", "/VBA/dir" and "/VBA/Mod". -/
def vbaImage : Bytes :=
  header ++ vbaFat.flatMap (leBytes 4) ++ vbaDir1 ++ vbaMinifat.flatMap (leBytes 4) ++ vbaMini ++ vbaDir2

def vbaTree : DirTree :=
  [dirEntry (text b!"Root Entry") true 512 3 0xffffffff 1, dirEntry (text b!"VBA") true 0 0 0xffffffff 2,
    { dirEntry (text b!"dir") false 254 1 3 0xffffffff with next := 4 },
    dirEntry (text b!"Mod") false 18 5 0xffffffff 0xffffffff, dirEntry (text b!"_VBA_PROJECT") false 8 0 0xffffffff 0xffffffff,
    { dir := true }, { dir := true }, { dir := true }]

def vbaIo : StorageIO :=
  { io with file := vbaImage, bbat := { blockSize := 512, data := vbaFat }, sbat := { blockSize := 64, data := vbaMinifat },
            dirtree := vbaTree }

theorem vba_opens : openStorage Abi.windows (some vbaImage) = .ok (.opened vbaIo) := by rw [openStorage_quick]; decide +kernel

theorem vba_length : vbaImage.length = 3072 := by decide +kernel

theorem content_two {file : Bytes} {ss n m : Nat} {bs cs : Bytes} (h : ss * (n + 1) + ss ≤ file.length)
    (hb : (file.drop (ss * (n + 1))).take ss = bs) (h' : ss * (m + 1) + ss ≤ file.length)
    (hb' : (file.drop (ss * (m + 1))).take ss = cs) : Content file ss [n, m] (bs ++ cs) := by
  have := Content.cons (sector_check h) (content_one h' hb')
  rw [hb] at this
  exact this

theorem vba_is_image : CfbImage vbaImage hd vbaFat vbaMinifat (vbaDir1 ++ vbaDir2) [3] := by
  have hl := vba_length
  refine ⟨?_, ?_, ?_, by decide +kernel, ?_, ?_, ?_⟩
  · refine ⟨?_, by omega, num_check (by decide +kernel), num_check (by decide +kernel), num_check (by decide +kernel),
      num_check (by decide +kernel), num_check (by decide +kernel), num_check (by decide +kernel),
      num_check (by decide +kernel), num_check (by decide +kernel), by decide +kernel, ?_⟩
    · exact (at_iff _ _ _).2 (by decide +kernel)
    · intro i b hb
      have h2 : hd.difat = (List.range 109).map fun i => leVal ((vbaImage.drop (0x4c + 4 * i)).take 4) := by
        decide +kernel
      rw [h2] at hb
      have hi : i < 109 := by have := (List.getElem?_eq_some_iff.1 hb).1; simpa using this
      rw [List.getElem?_map, List.getElem?_range hi] at hb
      simp at hb
      subst hb
      exact num_of_le (by omega)
  · exact ⟨rfl, by decide, fun _ => rfl, by decide, by decide⟩
  · exact ⟨[0], vbaFat.flatMap (leBytes 4), Or.inl ⟨by decide, by decide +kernel⟩, rfl,
      content_one (by rw [hl]; decide) (by decide +kernel), words_check (by decide +kernel) (by decide +kernel)⟩
  · exact ⟨[2], vbaMinifat.flatMap (leBytes 4), Or.inl (.last (e := 0xfffffffe) (by decide +kernel) (by decide +kernel)),
      content_one (by rw [hl]; decide) (by decide +kernel), words_check (by decide +kernel) (by decide +kernel)⟩
  · exact ⟨[1, 4], .next (n := 4) (by decide +kernel) (by decide +kernel)
      (.last (e := 0xfffffffe) (by decide +kernel) (by decide +kernel)),
      content_two (by rw [hl]; decide) (by decide +kernel) (by rw [hl]; decide) (by decide +kernel)⟩
  · exact ⟨3, num_check (by decide +kernel), Or.inl (.last (e := 0xfffffffe) (by decide +kernel) (by decide +kernel))⟩

/-- The content of a stream in the mini stream. -/
theorem vba_content {start size : Nat} {sectors : List Nat} {bytes : Bytes} (hs : size < 4096)
    (hc : Chain vbaMinifat start sectors) (hm : MiniContent vbaMini 64 sectors bytes) (hl : size ≤ bytes.length) :
    StreamContent vbaImage hd vbaFat vbaMinifat [3] start size (bytes.take size) := by
  refine ⟨by rw [List.length_take]; omega, ?_⟩
  rw [if_neg (by omega)]
  exact ⟨sectors, vbaMini, bytes, Or.inl hc, content_one (by rw [vba_length]; decide) (by decide +kernel), hm,
    ⟨[], bytes.drop size, by simp, rfl⟩⟩

theorem mini_step {mini : Bytes} {n : Nat} {rest : List Nat} {content : Bytes} (h : 64 * n + 64 ≤ mini.length)
    (hr : MiniContent mini 64 rest content) : MiniContent mini 64 (n :: rest) ((mini.drop (64 * n)).take 64 ++ content) :=
  .cons (at_of_le h) (by rw [List.length_take, List.length_drop]; omega) hr

theorem vba_stream (path : WStr) (j start size : Nat) (content : Bytes) (hne : path ≠ [])
    (hidx : entryIdx Abi.windows vbaTree path = .ok (some j)) (hj : j < 8) (hdir : isDirOf vbaTree j = false)
    (h1 : Num (vbaDir1 ++ vbaDir2) (128 * j + 0x74) 4 start) (h2 : Num (vbaDir1 ++ vbaDir2) (128 * j + 0x78) 4 size)
    (hc : StreamContent vbaImage hd vbaFat vbaMinifat [3] start size content) :
    ∃ s, vbaIo.streamIO Abi.windows path = .ok (some s) ∧ Reads vbaIo s content := by
  obtain ⟨io, ho, hop, he⟩ := opened_of_image Abi.windows (Or.inr rfl) _ _ _ _ _ _ vba_is_image
  rw [vba_opens] at ho
  cases ho
  obtain ⟨s, hs, _, hr⟩ := visit_stream Abi.windows _ _ _ _ _ _ vba_is_image (by decide +kernel) vbaIo hop he path hne j hidx
    hj hdir start size content h1 h2 hc
  exact ⟨s, hs, hr⟩

theorem vba_head : ∃ s, vbaIo.streamIO Abi.windows ([] ++ wide b!"/VBA/_VBA_PROJECT") = .ok (some s) ∧ Reads vbaIo s vbaHead := by
  refine vba_stream _ 4 0 8 vbaHead (by decide) (by decide +kernel) (by decide) (by decide) (num_check (by decide +kernel))
    (num_check (by decide +kernel)) ?_
  have := vba_content (start := 0) (size := 8) (by decide) (.last (e := 0xfffffffe) (by decide +kernel) (by decide +kernel))
    (mini_step (by decide +kernel) .nil) (by decide +kernel)
  have e : List.take 8 ((vbaMini.drop (64 * 0)).take 64 ++ []) = vbaHead := by decide +kernel
  rw [e] at this
  exact this

theorem vba_dirStream : ∃ s, vbaIo.streamIO Abi.windows ([] ++ wide b!"/VBA/dir") = .ok (some s) ∧ Reads vbaIo s vbaDirStream := by
  refine vba_stream _ 2 1 254 vbaDirStream (by decide) (by decide +kernel) (by decide) (by decide) (num_check (by decide +kernel))
    (num_check (by decide +kernel)) ?_
  have := vba_content (start := 1) (size := 254) (by decide)
    (.next (n := 2) (by decide +kernel) (by decide +kernel) (.next (n := 3) (by decide +kernel) (by decide +kernel)
      (.next (n := 4) (by decide +kernel) (by decide +kernel) (.last (e := 0xfffffffe) (by decide +kernel) (by decide +kernel)))))
    (mini_step (by decide +kernel) (mini_step (by decide +kernel) (mini_step (by decide +kernel) (mini_step (by decide +kernel) .nil))))
    (by decide +kernel)
  have e : List.take 254 ((vbaMini.drop (64 * 1)).take 64 ++ ((vbaMini.drop (64 * 2)).take 64 ++ ((vbaMini.drop (64 * 3)).take 64 ++
    ((vbaMini.drop (64 * 4)).take 64 ++ [])))) = vbaDirStream := by decide +kernel
  rw [e] at this
  exact this

theorem vba_module : ∃ s, vbaIo.streamIO Abi.windows ([] ++ wide b!"/VBA/" ++ text b!"Mod") = .ok (some s) ∧
    Reads vbaIo s vbaModule := by
  refine vba_stream _ 3 5 18 vbaModule (by decide) (by decide +kernel) (by decide) (by decide) (num_check (by decide +kernel))
    (num_check (by decide +kernel)) ?_
  have := vba_content (start := 5) (size := 18) (by decide) (.last (e := 0xfffffffe) (by decide +kernel) (by decide +kernel))
    (mini_step (by decide +kernel) .nil) (by decide +kernel)
  have e : List.take 18 ((vbaMini.drop (64 * 5)).take 64 ++ []) = vbaModule := by decide +kernel
  rw [e] at this
  exact this

end Sample

/-- The hypotheses of `C83_project_partial` hold of a file: the version, the name, the module and its source text are
reported. -/
example : ∃ io v, openStorage Abi.windows (some Sample.vbaImage) = .ok (.opened io) ∧ Analyze Abi.windows io [] = .ok v ∧
    v.base.Version = 0x85 ∧ v.ProjectName = b!"P" ∧ v.Modules.length = 1 ∧
    ∀ x, v.Modules[0]? = some x → x.Code = b!"Sub Main()" ∧ x.Name = b!"Mod" ∧ x.isPrivate = true ∧ x.isReadOnly = false := by
  obtain ⟨s, hs, hr⟩ := Sample.vba_head
  obtain ⟨sd, hsd, hrd⟩ := Sample.vba_dirStream
  obtain ⟨sm, hsm, hrm⟩ := Sample.vba_module
  obtain ⟨v, h1, h2, h3, h4, h5⟩ := C83_project_partial Sample.vbaIo [] Sample.project rfl (fun _ _ h => by cases h)
    (by
      intro m hm
      have : Sample.project.modules = [_] := rfl
      rw [this, List.mem_singleton] at hm
      subst hm
      exact ⟨by decide, by decide, by decide⟩)
    s sd Sample.vbaHead Sample.vbaDirStream 0x85 hs hr (Sample.num_check (by decide +kernel)) (by decide) hsd hrd
    (Sample.container_spec _ (by decide +kernel) (by decide +kernel) (by decide +kernel)) (by decide +kernel)
    [Sample.source] rfl
    (by
      intro j m c hm hc
      have hj : j = 0 := by
        have := (List.getElem?_eq_some_iff.1 hc).1
        simpa using this
      subst hj
      cases hm
      cases hc
      exact ⟨sm, Sample.vbaModule, hsm, hrm, by decide +kernel, by decide +kernel,
        Sample.container_spec _ (by decide) (by decide) (by decide +kernel)⟩)
  refine ⟨_, v, Sample.vba_opens, h1, h2, h3, h4, fun x hx => ?_⟩
  obtain ⟨a1, _, _, _, a5, a6, a7⟩ := h5 0 x _ _ hx rfl rfl
  exact ⟨a7, a1, a6, a5⟩

end Fileid.Props
