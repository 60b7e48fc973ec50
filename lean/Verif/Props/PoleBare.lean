import Verif.Lemmas.PoleBare
import Verif.Props.PoleEdit

/-!
# Properties of existing compound files: C114, a file without a mini FAT
-/

namespace Fileid.Props

open Spec Pole

namespace Bare

/-- A header with one FAT sector (sector 0), the directory in sector 1 and no mini FAT. -/
def header : Bytes :=
  [0xd0, 0xcf, 0x11, 0xe0, 0xa1, 0xb1, 0x1a, 0xe1] ++ List.replicate 16 0 ++ leBytes 2 0x3e ++ leBytes 2 3 ++
    leBytes 2 0xfffe ++ leBytes 2 9 ++ leBytes 2 6 ++ List.replicate 10 0 ++ leBytes 4 1 ++ leBytes 4 1 ++
    leBytes 4 0 ++ leBytes 4 4096 ++ leBytes 4 0xfffffffe ++ leBytes 4 0 ++ leBytes 4 0xfffffffe ++ leBytes 4 0 ++
    leBytes 4 0 ++ List.replicate 432 0xff

def fat : List Nat := [0xfffffffd, 0xfffffffe] ++ List.replicate 126 0xffffffff

/-- The root with nothing in it. -/
def dir : Bytes :=
  Sample.entry (b!"Root Entry".map UInt8.toNat) 5 0xffffffff 0xffffffff 0xffffffff 0xfffffffe 0 ++ List.replicate 384 0

def image : Bytes := header ++ fat.flatMap (leBytes 4) ++ dir

def hd : CfbHeader := ⟨9, 6, 1, 1, 4096, 0xfffffffe, 0xfffffffe, 0, 0 :: List.replicate 108 0xffffffff⟩

theorem image_length : image.length = 1536 := by decide +kernel

/-- It is a compound file. -/
theorem is_image : CfbImage image hd fat [] dir [] := by
  have hl := image_length
  refine ⟨?_, ?_, ?_, by decide +kernel, ?_, ?_, ?_⟩
  · refine ⟨?_, by omega, Sample.num_check (by decide +kernel), Sample.num_check (by decide +kernel), Sample.num_check (by decide +kernel),
      Sample.num_check (by decide +kernel), Sample.num_check (by decide +kernel), Sample.num_check (by decide +kernel),
      Sample.num_check (by decide +kernel), Sample.num_check (by decide +kernel), by decide +kernel, ?_⟩
    · exact (at_iff _ _ _).2 (by decide +kernel)
    · intro i b hb
      have h2 : hd.difat = (List.range 109).map fun i => leVal ((image.drop (0x4c + 4 * i)).take 4) := by decide +kernel
      rw [h2] at hb
      have hi : i < 109 := by have := (List.getElem?_eq_some_iff.1 hb).1; simpa using this
      rw [List.getElem?_map, List.getElem?_range hi] at hb
      simp at hb
      subst hb
      exact num_of_le (by omega)
  · exact ⟨rfl, by decide, fun _ => rfl, by decide, by decide⟩
  · exact ⟨[0], fat.flatMap (leBytes 4), Or.inl ⟨by decide, by decide +kernel⟩, rfl,
      Sample.content_one (by rw [hl]; decide) (by decide +kernel), Sample.words_check (by decide +kernel) (by decide +kernel)⟩
  · exact ⟨[], [], Or.inr ⟨by decide +kernel, rfl⟩, .nil, rfl, fun i w h => by cases h⟩
  · exact ⟨[1], .last (e := 0xfffffffe) (by decide +kernel) (by decide +kernel),
      Sample.content_one (by rw [hl]; decide) (by decide +kernel)⟩
  · exact ⟨0xfffffffe, Sample.num_check (by decide +kernel), Or.inr ⟨by decide +kernel, rfl⟩⟩

/-- The opened storage. -/
def io : StorageIO :=
  { file := image
    header := { num_bat := 1, dirent_start := 1, sbat_start := 0xfffffffe, num_sbat := 0,
                bb_blocks := 0 :: List.replicate 108 0xffffffff }
    bbat := { blockSize := 512, data := fat }
    sbat := { blockSize := 64, data := List.replicate 128 0xffffffff }
    dirtree := [{ valid := true, name := b!"Root Entry".map UInt8.toNat, dir := true, size := 0, start := 0xfffffffe,
                  prev := 0xffffffff, next := 0xffffffff, child := 0xffffffff }, { dir := true }, { dir := true }, { dir := true }]
    sb_blocks := [] }

theorem opens : openStorage Abi.windows (some image) = .ok (.opened io) := by rw [openStorage_quick]; decide +kernel

def parts : CfbParts where
  hd := hd
  fat := fat
  minifat := []
  dir := dir
  entries := io.dirtree
  kids := fun _ => []
  layout := ⟨fun | .dir => [1] | _ => [], fun _ => []⟩
  contents := ⟨fun _ => 0, fun _ _ => none⟩

theorem parts_shape : Shape Abi.windows io.dirtree parts.kids := by
  refine ⟨?_, fun i j _ x hx => (by cases hx), fun _ _ => rfl, ?_, by decide +kernel, ⟨_, rfl, rfl, rfl⟩⟩
  · intro i e he hv
    match i, he with
    | 0, he => cases he; exact ⟨.leaf, ⟨.leaf (by decide), .leaf, fun j hj => (by cases hj)⟩, rfl⟩
    | 1, he => cases he; cases hv
    | 2, he => cases he; cases hv
    | 3, he => cases he; cases hv
    | j + 4, he => cases he
  · intro j e he hv
    match j, he with
    | 0, he => cases he; decide +kernel
    | 1, he => cases he; cases hv
    | 2, he => cases he; cases hv
    | 3, he => cases he; cases hv
    | j + 4, he => cases he

theorem parts_shows : Shows io.dirtree parts.kids parts.contents FileMap.empty := by
  constructor
  · intro q k h
    cases h with
    | here => exact ⟨_, rfl, rfl⟩
    | down hj h => cases hj
  · intro q node h
    unfold FileMap.empty at h
    split at h
    · rename_i hq; subst hq; exact ⟨0, .here⟩
    · cases h

theorem parts_names (i : Nat) (e : DirEntry) (he : io.dirtree[i]? = some e) :
    e.valid = true → ((List.range e.name.length).all fun k => decide (128 * i + 2 * k + 2 ≤ dir.length ∧
      some (leVal ((dir.drop (128 * i + 2 * k)).take 2)) = e.name[k]?)) = true ∧ (∀ u ∈ e.name, u % 256 ≠ 0) ∧ e.name.length < 32 ∧
      (128 * i + 2 * e.name.length + 2 ≤ dir.length ∧ leVal ((dir.drop (128 * i + 2 * e.name.length)).take 2) = 0) ∧
      (128 * i + 0x40 + 2 ≤ dir.length ∧ leVal ((dir.drop (128 * i + 0x40)).take 2) = 2 * (e.name.length + 1)) := by
  match i, he with
  | 0, he =>
    have : e = io.dirtree[0]'(by decide) := (Option.some.inj he).symm
    subst this
    exact fun _ => by decide +kernel
  | 1, he => cases he; exact fun h => by cases h
  | 2, he => cases he; exact fun h => by cases h
  | 3, he => cases he; exact fun h => by cases h
  | j + 4, he => cases he

theorem no_streams (i : Nat) (e : DirEntry) (he : io.dirtree[i]? = some e) : ¬ IsStream e := by
  match i, he with
  | 0, he => cases he; exact fun hs => absurd hs.2 (by decide)
  | 1, he => cases he; exact fun hs => absurd hs.1 (by decide)
  | 2, he => cases he; exact fun hs => absurd hs.1 (by decide)
  | 3, he => cases he; exact fun hs => absurd hs.1 (by decide)
  | j + 4, he => cases he

/-- The file shows the map in which only the root is. -/
theorem is_cfb : CfbFile image parts FileMap.empty := by
  obtain ⟨io', h1, _, _, _, _, _, _, _, _, _, h11⟩ := C68_open Abi.windows (by decide) image hd fat [] dir [] is_image
  rw [opens] at h1
  cases h1
  have ents : ∀ i e, io.dirtree[i]? = some e → EntryStored dir (128 * i) e := by
    intro i e he
    obtain ⟨g1, g2⟩ := h11 i e he
    exact Sample.one_entry g1 g2 (parts_names i e he)
  refine ⟨is_image, by decide +kernel, by decide +kernel, ents, parts_shape, parts_shows, ⟨?_, ?_⟩, ⟨fun i hi => absurd rfl hi, fun i j _ x hx => (by cases hx)⟩,
    Or.inl ⟨rfl, by decide⟩, Or.inr rfl, fun i x hx => (by cases hx), fun i e he hs => absurd hs (no_streams i e he), fun i _ => ⟨rfl, rfl⟩,
    fun i p v hv => (by cases hv)⟩
  · intro o ho
    cases o with
    | dir => exact Sample.linked_end (by decide +kernel)
    | miniFat => exact absurd rfl ho
    | mini => exact absurd rfl ho
    | stream i => exact absurd rfl ho
  · intro o o' hne x hx hx'
    cases o <;> cases o' <;> first
      | exact hne rfl
      | exact List.not_mem_nil hx
      | exact List.not_mem_nil hx'

/-- The storage after a stream "a" was created and written. -/
def storage : Writer :=
  { reopened io with
    io := { io with
      file := image ++ List.replicate 512 0 ++ b!"abc"
      header := { io.header with num_sbat := 1 }
      bbat := { io.bbat with data := [0xfffffffd, 0xfffffffe, 0xfffffffe, 0xfffffffe] ++ List.replicate 124 0xffffffff }
      sbat := { io.sbat with data := 0xfffffffe :: List.replicate 127 0xffffffff }
      dirtree := [{ valid := true, name := b!"Root Entry".map UInt8.toNat, dir := true, size := 0, start := 0xfffffffe,
                    prev := 0xffffffff, next := 0xffffffff, child := 1 },
                  { valid := true, name := [97], dir := false, size := 3, start := 0, prev := 0xffffffff, next := 0xffffffff,
                    child := 0xffffffff }, { dir := true }, { dir := true }]
      sb_blocks := [3] }
    headerDirty := true, bbatDirty := [0], sbatDirty := [0], dirDirty := [0] }

theorem written : storageOn .windows (reopened io) [.openStream [[97]] true 0, .use (.write 0 b!"abc")] = .ok storage := by decide +kernel

end Bare

/-- C114 is false of files without a mini FAT, such as those that have no stream below 4096 bytes: whatever requests are made, once some stream
of less than 4096 bytes has a byte, no flush succeeds. The header is never told where the new mini FAT begins, so the buffer for it has no
bytes, and the table is written behind its end. -/
theorem C114_no_minifat_false (file : Bytes) (P : CfbParts) (f : FileMap) (hfile : CfbFile file P f) (hno : P.layout.big .miniFat = [])
    (io : StorageIO) (hio : openStorage .windows (some file) = .ok (.opened io)) (S : Session) (requests : List Request) (answers : List Answer)
    (hr : (⟨reopened io, []⟩ : Session).serve .windows requests = .ok (S, answers))
    (hs : (PathView.of f).AllSensible .windows requests answers) (hf : Spec.Fits S.w) (hlen : S.w.io.dirtree.length < 0xffffffff)
    (path : List WStr) (n : Nat) (byte : Nat → Option UInt8)
    (hp : ((PathView.of f).finally requests answers).file path = some (.stream n byte)) (hn : n < 4096) (p : Nat) (v : UInt8)
    (hv : byte p = some v) (junk : Nat → Nat → UInt8) (w' : Writer) : S.w.flush junk ≠ .ok w' := by
  obtain ⟨io', O⟩ := cfb_opened hfile
  have := O.opened
  rw [hio] at this
  cases this
  have Q := serve_quiet requests hr
  have hstart : 0xfffffffc ≤ P.hd.miniFatStart := by
    rcases hfile.miniFat with h | h
    · exact h.2
    · rw [hno] at h; cases h
  have hnone : P.minifat = [] := by
    obtain ⟨ms, bytes, h1, h2, h3⟩ := hfile.image.hminifat
    have hms : ms = [] := by
      rcases h1 with h1 | h1
      · exfalso
        have := hfile.image.hfatSize
        have : P.hd.miniFatStart < P.fat.length := by
          cases h1 with
          | last h _ => exact (List.getElem?_eq_some_iff.1 h).1
          | next h _ _ => exact (List.getElem?_eq_some_iff.1 h).1
        omega
      · exact h1.2
    subst hms
    cases h2
    exact List.length_eq_zero_iff.1 (by have := h3.1; simp at this; omega)
  have hdata : io.sbat.data = List.replicate 128 0xffffffff := by rw [O.small, if_pos hnone]
  obtain ⟨_, M⟩ := C113_history_partial file P f hfile io hio S requests answers hr hs hf hlen
  obtain ⟨u, kids, hm, _, hshows, _⟩ := M.inner
  obtain ⟨k, hk⟩ := hshows.complete path _ hp
  obtain ⟨e, he, h1⟩ := hshows.sound path k hk
  rw [hp] at h1
  have h2 : n = u.contents.size k ∧ byte = u.contents.byte k := by
    split at h1
    · cases h1
    · cases h1; exact ⟨rfl, rfl⟩
  obtain ⟨L, H, _⟩ := hm.holds
  obtain ⟨_, e', a, he', hs', hplace, _⟩ := H.known k p v (by rw [← h2.2]; exact hv)
  obtain ⟨hsize, _⟩ := H.entry k e' he' hs'
  have hthr : S.w.io.header.threshold = 4096 := Q.threshold.trans O.threshold
  unfold place at hplace
  rw [if_pos (by rw [hthr, hsize, ← h2.1]; exact hn)] at hplace
  have hne : L.small k ≠ [] := by
    intro h0
    rw [h0] at hplace
    cases hplace
  obtain ⟨x, hx⟩ := List.exists_mem_of_ne_nil _ hne
  obtain ⟨val, hval, hlt⟩ := linked_get (H.small.linked k hne) x hx
  refine flush_none ?_ ?_ ?_
  · rw [Q.start]
    show _ ≤ io.header.sbat_start
    rw [O.miniFatStart]
    exact Nat.le_trans hf.1 hstart
  · refine Nat.lt_of_lt_of_le ?_ Q.length
    show 0 < io.sbat.data.length
    rw [hdata, List.length_replicate]
    decide
  · intro hd
    have := (Q.clean hd).2
    rw [this] at hval
    have hval : io.sbat.data[x]? = some val := hval
    rw [hdata, List.getElem?_replicate] at hval
    split at hval
    · cases hval; exact absurd hlt (by decide)
    · cases hval

/-- So it is of a file in which only the root is: a stream of three bytes is created and written, and flushing writes behind the end of
a buffer. -/
theorem C114_no_minifat_wrong : ∃ (file : Bytes) (P : CfbParts) (io : StorageIO) (S : Session) (answers : List Answer),
    CfbFile file P FileMap.empty ∧ P.layout.big .miniFat = [] ∧ openStorage .windows (some file) = .ok (.opened io) ∧
    (⟨reopened io, []⟩ : Session).serve .windows [.openStream [[97]] true 0, .use (.write 0 b!"abc")] = .ok (S, answers) ∧
    S.w.flush (fun _ _ => 0) = .ub .oobWrite := by
  have g := Bare.written
  unfold storageOn at g
  obtain ⟨⟨S, as⟩, g1, g⟩ := bind_inv g
  have gw : S.w = _ := Res.ok.inj g
  exact ⟨Bare.image, Bare.parts, Bare.io, S, as, Bare.is_cfb, rfl, Bare.opens, g1, by rw [gw, ← quick_eq]; decide +kernel⟩

/-! ### The hypotheses are met -/

def bareRequests : List Request := [.openStream [[97]] true 0, .use (.write 0 b!"abc")]

def bareAnswers : List Answer := [.opened (some 0), .reply (.wrote 3)]

theorem bare_sensible : (PathView.of FileMap.empty).AllSensible .windows bareRequests bareAnswers := by
  have ok : ∀ n ∈ ([[97]] : List WStr), n ≠ [] ∧ 47 ∉ n ∧ ∀ x ∈ n, x < 2 ^ (8 * Abi.windows.wcharBytes) := by decide
  exact ⟨⟨fun n hn => ok n (by simp_all), by decide, fun h hh => (by cases hh)⟩, (by decide : 0 + 3 < 2 ^ 64), trivial⟩

example : CfbFile Bare.image Bare.parts FileMap.empty ∧ Bare.parts.layout.big .miniFat = [] ∧
    openStorage .windows (some Bare.image) = .ok (.opened Bare.io) ∧
    ∃ S, (⟨reopened Bare.io, []⟩ : Session).serve .windows bareRequests = .ok (S, bareAnswers) ∧
      (PathView.of FileMap.empty).AllSensible .windows bareRequests bareAnswers ∧ Spec.Fits S.w ∧ S.w.io.dirtree.length < 0xffffffff ∧
      ∃ n byte, ((PathView.of FileMap.empty).finally bareRequests bareAnswers).file [[97]] = some (.stream n byte) ∧ n < 4096 ∧ byte 0 = some 97 :=
  ⟨Bare.is_cfb, rfl, Bare.opens, by
    have : (match (⟨reopened Bare.io, []⟩ : Session).serve .windows bareRequests with
        | .ok (S, a) => decide (a = bareAnswers ∧ (S.w.io.bbat.data.length ≤ 0xfffffffc ∧ S.w.io.sbat.data.length ≤ 0xfffffffc) ∧
            S.w.io.dirtree.length < 0xffffffff)
        | _ => false) = true := by
      decide +kernel
    split at this
    · rename_i S a h
      obtain ⟨h1, h2, h3⟩ := of_decide_eq_true this
      exact ⟨S, by rw [h, h1], bare_sensible, h2, h3, 3, _, rfl, by decide, by decide +kernel⟩
    · cases this⟩

end Fileid.Props
