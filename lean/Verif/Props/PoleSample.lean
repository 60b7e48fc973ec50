import Verif.Lemmas.PoleQuickOpen
import Verif.Props.PoleOpen

/-!
# A compound file as a witness, and what goes wrong behind the end of its stream (C44)
-/

namespace Fileid.Props

open Spec Pole

/-! ## An image -/

namespace Sample

/-- 128 bytes of a directory entry. -/
def entry (name : List Nat) (type prev next child start size : Nat) : Bytes :=
  let n := name.flatMap (leBytes 2)
  n ++ List.replicate (64 - n.length) 0 ++ leBytes 2 (n.length + 2) ++ [UInt8.ofNat type, 1] ++ leBytes 4 prev ++
    leBytes 4 next ++ leBytes 4 child ++ List.replicate 36 0 ++ leBytes 4 start ++ leBytes 4 size ++ leBytes 4 0

/-- A header with one FAT sector (sector 0), the directory in sector 1 and the mini FAT in sector 2. -/
def header : Bytes :=
  [0xd0, 0xcf, 0x11, 0xe0, 0xa1, 0xb1, 0x1a, 0xe1] ++ List.replicate 16 0 ++ leBytes 2 0x3e ++ leBytes 2 3 ++
    leBytes 2 0xfffe ++ leBytes 2 9 ++ leBytes 2 6 ++ List.replicate 10 0 ++ leBytes 4 1 ++ leBytes 4 1 ++
    leBytes 4 0 ++ leBytes 4 4096 ++ leBytes 4 2 ++ leBytes 4 1 ++ leBytes 4 0xfffffffe ++ leBytes 4 0 ++
    leBytes 4 0 ++ List.replicate 432 0xff

def fat : List Nat := [0xfffffffd, 0xfffffffe, 0xfffffffe, 0xfffffffe] ++ List.replicate 124 0xffffffff
def minifat : List Nat := 0xfffffffe :: List.replicate 127 0xffffffff

/-- The root with one stream of one byte, called "a". -/
def dir : Bytes :=
  entry (b!"Root Entry".map UInt8.toNat) 5 0xffffffff 0xffffffff 1 3 64 ++
    entry [97] 2 0xffffffff 0xffffffff 0xffffffff 0 1 ++ List.replicate 256 0

def image : Bytes :=
  header ++ fat.flatMap (leBytes 4) ++ dir ++ minifat.flatMap (leBytes 4) ++ [65] ++ List.replicate 511 0

def hd : CfbHeader := ⟨9, 6, 1, 1, 4096, 2, 0xfffffffe, 0, 0 :: List.replicate 108 0xffffffff⟩

theorem num_check {c : Bytes} {off n v : Nat} (h : off + n ≤ c.length ∧ leVal ((c.drop off).take n) = v) :
    Num c off n v := h.2 ▸ num_of_le h.1

theorem words_check {bs : Bytes} {ws : List Nat} (h1 : bs.length = 4 * ws.length)
    (h2 : ws = (List.range ws.length).map fun i => leVal ((bs.drop (4 * i)).take 4)) : Words bs ws := by
  refine ⟨h1, fun i w hw => ?_⟩
  have hi := (List.getElem?_eq_some_iff.1 hw).1
  rw [h2, List.getElem?_map, List.getElem?_range hi] at hw
  simp at hw
  subst hw
  exact num_of_le (by omega)

theorem sector_check {file : Bytes} {ss n : Nat} (h : ss * (n + 1) + ss ≤ file.length) :
    Sector file ss n ((file.drop (ss * (n + 1))).take ss) :=
  ⟨at_of_le h, by rw [List.length_take, List.length_drop]; omega⟩

theorem content_one {file : Bytes} {ss n : Nat} {bs : Bytes} (h : ss * (n + 1) + ss ≤ file.length)
    (hb : (file.drop (ss * (n + 1))).take ss = bs) : Content file ss [n] bs := by
  have := Content.cons (sector_check h) (Content.nil (file := file) (ss := ss))
  rw [hb, List.append_nil] at this
  exact this

theorem image_length : image.length = 2560 := by decide +kernel

/-- It is a compound file. -/
theorem is_image : CfbImage image hd fat minifat dir [3] := by
  have hl := image_length
  refine ⟨?_, ?_, ?_, by decide +kernel, ?_, ?_, ?_⟩
  · refine ⟨?_, by omega, num_check (by decide +kernel), num_check (by decide +kernel), num_check (by decide +kernel),
      num_check (by decide +kernel), num_check (by decide +kernel), num_check (by decide +kernel),
      num_check (by decide +kernel), num_check (by decide +kernel), by decide +kernel, ?_⟩
    · exact (at_iff _ _ _).2 (by decide +kernel)
    · intro i b hb
      have h2 : hd.difat = (List.range 109).map fun i => leVal ((image.drop (0x4c + 4 * i)).take 4) := by decide +kernel
      rw [h2] at hb
      have hi : i < 109 := by have := (List.getElem?_eq_some_iff.1 hb).1; simpa using this
      rw [List.getElem?_map, List.getElem?_range hi] at hb
      simp at hb
      subst hb
      exact num_of_le (by omega)
  · exact ⟨rfl, by decide, fun _ => rfl, by decide, by decide⟩
  · exact ⟨[0], fat.flatMap (leBytes 4), Or.inl ⟨by decide, by decide +kernel⟩, rfl,
      content_one (by rw [hl]; decide) (by decide +kernel), words_check (by decide +kernel) (by decide +kernel)⟩
  · exact ⟨[2], minifat.flatMap (leBytes 4), Or.inl (.last (e := 0xfffffffe) (by decide +kernel) (by decide +kernel)),
      content_one (by rw [hl]; decide) (by decide +kernel), words_check (by decide +kernel) (by decide +kernel)⟩
  · exact ⟨[1], .last (e := 0xfffffffe) (by decide +kernel) (by decide +kernel),
      content_one (by rw [hl]; decide) (by decide +kernel)⟩
  · exact ⟨3, num_check (by decide +kernel), Or.inl (.last (e := 0xfffffffe) (by decide +kernel) (by decide +kernel))⟩

/-- The opened container. -/
def io : StorageIO :=
  { file := image
    header := { num_bat := 1, dirent_start := 1, sbat_start := 2, num_sbat := 1,
                bb_blocks := 0 :: List.replicate 108 0xffffffff }
    bbat := { blockSize := 512, data := fat }
    sbat := { blockSize := 64, data := minifat }
    dirtree := [{ valid := true, name := b!"Root Entry".map UInt8.toNat, dir := true, size := 64, start := 3,
                  prev := 0xffffffff, next := 0xffffffff, child := 1 },
                { valid := true, name := [97], dir := false, size := 1, start := 0, prev := 0xffffffff,
                  next := 0xffffffff, child := 0xffffffff }, { dir := true }, { dir := true }]
    sb_blocks := [3] }

theorem opens : openStorage Abi.windows (some image) = .ok (.opened io) := by rw [openStorage_quick]; decide +kernel

end Sample

/-- C44 is false behind the end of a stream: the remaining length wraps around. Reading one byte at position 2 of a
stream of one byte into a buffer of one byte writes behind the buffer. -/
theorem C44_false : ∃ file io s, openStorage Abi.windows (some file) = .ok (.opened io) ∧
    io.streamIO Abi.windows [47, 97] = .ok (some s) ∧ s.entry.size = 1 ∧
    s.readAt io 2 (newMem 1) 1 = .ub .oobWrite :=
  ⟨Sample.image, Sample.io, ⟨(Sample.io.dirtree[1]'(by decide)), [0]⟩, Sample.opens, by decide +kernel, rfl,
    by decide +kernel⟩

/-- The byte of the stream is read (C67). -/
example : ∃ s, Sample.io.streamIO Abi.windows [47, 97] = .ok (some s) ∧
    s.readAt Sample.io 0 (newMem 3) 3 = .ok (1, [some 65, none, none]) :=
  ⟨⟨(Sample.io.dirtree[1]'(by decide)), [0]⟩, by decide +kernel, by decide +kernel⟩

end Fileid.Props
