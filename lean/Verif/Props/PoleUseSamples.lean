import Verif.Props.PoleFlushSamples
import Verif.Model.PoleUse

/-!
# A storage that is written, deleted from, written again and flushed, step by step, for the examples
-/

namespace Fileid.Props

open Spec Pole

/-- The storage of `goodStorage` after its stream "a" was deleted. -/
def usedStorage : Writer :=
  { io :=
      { file :=
          [208, 207, 17, 224, 161, 177, 26, 225] ++ List.replicate 16 0 ++ [62, 0, 3, 0, 254, 255, 9, 0, 6] ++ List.replicate 11
          0 ++ [1, 0, 0, 0, 1] ++ List.replicate 8 0 ++ [16, 0, 0, 2, 0, 0, 0, 1, 0, 0, 0, 254, 255, 255, 255] ++ List.replicate
          8 0 ++ List.replicate 432 255 ++ [254, 255, 255, 255, 254, 255, 255, 255, 254, 255, 255, 255, 254] ++ List.replicate
          499 255 ++ [82, 0, 111, 0, 111, 0, 116, 0, 32, 0, 69, 0, 110, 0, 116, 0, 114, 0, 121] ++ List.replicate 45 0 ++ [22,
          0, 5, 0] ++ List.replicate 8 255 ++ [1] ++ List.replicate 39 0 ++ [3, 0, 0, 0, 0, 2, 0, 0, 0, 0, 0, 0, 99, 0, 99] ++
          List.replicate 61 0 ++ [6, 0, 1, 1] ++ List.replicate 8 255 ++ [2] ++ List.replicate 39 0 ++ [255, 255, 255, 255] ++
          List.replicate 8 0 ++ [100] ++ List.replicate 63 0 ++ [4, 0, 2, 1] ++ List.replicate 12 255 ++ List.replicate 40 0 ++
          [4, 0, 0, 0, 0, 0, 0, 0, 97] ++ List.replicate 63 0 ++ [4, 0, 0, 1] ++ List.replicate 12 255 ++ List.replicate 36 0 ++
          [1, 0, 0, 0, 4, 0, 0, 0, 0, 0, 0, 0, 254] ++ List.replicate 511 255 ++ [100, 101, 101, 112] ++ List.replicate 60 0 ++
          [102, 108, 97, 116],
        header :=
          { id := pole_magic, b_shift := 9, s_shift := 6, num_bat := 1, dirent_start := 1, threshold := 4096,
            sbat_start := 2, num_sbat := 1, mbat_start := 0xfffffffe, num_mbat := 0,
            bb_blocks := [0] ++ List.replicate 108 0xffffffff },
        bbat :=
          { blockSize := 512, data := [0xfffffffe, 0xfffffffe, 0xfffffffe, 0xfffffffe] ++ List.replicate 124 0xffffffff,
            bMaybeFragmented := true },
        sbat := { blockSize := 64, data := [0xfffffffe] ++ List.replicate 127 0xffffffff, bMaybeFragmented := true },
        dirtree :=
          [{ valid := true, name := [82, 111, 111, 116, 32, 69, 110, 116, 114, 121], dir := true, size := 0,
             start := 0xffffffff, prev := 0xffffffff, next := 0xffffffff, child := 1 },
           { valid := true, name := [99, 99], dir := true, size := 0, start := 0xffffffff, prev := 0xffffffff,
             next := 0xffffffff, child := 2 },
           { valid := true, name := [100], dir := false, size := 4, start := 0, prev := 0xffffffff, next := 0xffffffff,
             child := 0xffffffff },
           { valid := false, name := [97], dir := false, size := 4, start := 1, prev := 0xffffffff, next := 0xffffffff,
             child := 0xffffffff }],
        sb_blocks := [3] },
    writeable := true, headerDirty := false, bbatDirty := [], sbatDirty := [], dirDirty := [], mbat_blocks := [],
    mbat_data := [], mbatDirty := false }

/-- The same after a stream "e" was created and written. -/
def laterStorage : Writer :=
  { io :=
      { file :=
          [208, 207, 17, 224, 161, 177, 26, 225] ++ List.replicate 16 0 ++ [62, 0, 3, 0, 254, 255, 9, 0, 6] ++ List.replicate 11
          0 ++ [1, 0, 0, 0, 1] ++ List.replicate 8 0 ++ [16, 0, 0, 2, 0, 0, 0, 1, 0, 0, 0, 254, 255, 255, 255] ++ List.replicate
          8 0 ++ List.replicate 432 255 ++ [254, 255, 255, 255, 254, 255, 255, 255, 254, 255, 255, 255, 254] ++ List.replicate
          499 255 ++ [82, 0, 111, 0, 111, 0, 116, 0, 32, 0, 69, 0, 110, 0, 116, 0, 114, 0, 121] ++ List.replicate 45 0 ++ [22,
          0, 5, 0] ++ List.replicate 8 255 ++ [1] ++ List.replicate 39 0 ++ [3, 0, 0, 0, 0, 2, 0, 0, 0, 0, 0, 0, 99, 0, 99] ++
          List.replicate 61 0 ++ [6, 0, 1, 1] ++ List.replicate 8 255 ++ [2] ++ List.replicate 39 0 ++ [255, 255, 255, 255] ++
          List.replicate 8 0 ++ [100] ++ List.replicate 63 0 ++ [4, 0, 2, 1] ++ List.replicate 12 255 ++ List.replicate 40 0 ++
          [4, 0, 0, 0, 0, 0, 0, 0, 97] ++ List.replicate 63 0 ++ [4, 0, 0, 1] ++ List.replicate 12 255 ++ List.replicate 36 0 ++
          [1, 0, 0, 0, 4, 0, 0, 0, 0, 0, 0, 0, 254] ++ List.replicate 511 255 ++ [100, 101, 101, 112] ++ List.replicate 60 0 ++
          [110, 101, 120, 116],
        header :=
          { id := pole_magic, b_shift := 9, s_shift := 6, num_bat := 1, dirent_start := 1, threshold := 4096,
            sbat_start := 2, num_sbat := 1, mbat_start := 0xfffffffe, num_mbat := 0,
            bb_blocks := [0] ++ List.replicate 108 0xffffffff },
        bbat :=
          { blockSize := 512, data := [0xfffffffe, 0xfffffffe, 0xfffffffe, 0xfffffffe] ++ List.replicate 124 0xffffffff,
            bMaybeFragmented := true },
        sbat :=
          { blockSize := 64, data := [0xfffffffe, 0xfffffffe] ++ List.replicate 126 0xffffffff, bMaybeFragmented := true },
        dirtree :=
          [{ valid := true, name := [82, 111, 111, 116, 32, 69, 110, 116, 114, 121], dir := true, size := 0,
             start := 0xffffffff, prev := 0xffffffff, next := 0xffffffff, child := 1 },
           { valid := true, name := [99, 99], dir := true, size := 0, start := 0xffffffff, prev := 3, next := 0xffffffff,
             child := 2 },
           { valid := true, name := [100], dir := false, size := 4, start := 0, prev := 0xffffffff, next := 0xffffffff,
             child := 0xffffffff },
           { valid := true, name := [101], dir := false, size := 4, start := 1, prev := 0xffffffff, next := 0xffffffff,
             child := 0xffffffff }],
        sb_blocks := [3] },
    writeable := true, headerDirty := false, bbatDirty := [], sbatDirty := [0], dirDirty := [0], mbat_blocks := [],
    mbat_data := [], mbatDirty := false }

/-- Its file after a flush. -/
def laterFile : Bytes :=
  [208, 207, 17, 224, 161, 177, 26, 225] ++ List.replicate 16 0 ++ [62, 0, 3, 0, 254, 255, 9, 0, 6] ++ List.replicate 11 0 ++
  [1, 0, 0, 0, 1] ++ List.replicate 8 0 ++ [16, 0, 0, 2, 0, 0, 0, 1, 0, 0, 0, 254, 255, 255, 255] ++ List.replicate 8 0 ++
  List.replicate 432 255 ++ [254, 255, 255, 255, 254, 255, 255, 255, 254, 255, 255, 255, 254] ++ List.replicate 499 255 ++ [82,
  0, 111, 0, 111, 0, 116, 0, 32, 0, 69, 0, 110, 0, 116, 0, 114, 0, 121] ++ List.replicate 45 0 ++ [22, 0, 5, 0] ++
  List.replicate 8 255 ++ [1] ++ List.replicate 39 0 ++ [3, 0, 0, 0, 0, 2, 0, 0, 0, 0, 0, 0, 99, 0, 99] ++ List.replicate 61 0
  ++ [6, 0, 1, 1, 3, 0, 0, 0, 255, 255, 255, 255, 2] ++ List.replicate 39 0 ++ [255, 255, 255, 255] ++ List.replicate 8 0 ++
  [100] ++ List.replicate 63 0 ++ [4, 0, 2, 1] ++ List.replicate 12 255 ++ List.replicate 40 0 ++ [4, 0, 0, 0, 0, 0, 0, 0, 101]
  ++ List.replicate 63 0 ++ [4, 0, 2, 1] ++ List.replicate 12 255 ++ List.replicate 36 0 ++ [1, 0, 0, 0, 4, 0, 0, 0, 0, 0, 0, 0,
  254, 255, 255, 255, 254] ++ List.replicate 507 255 ++ [100, 101, 101, 112] ++ List.replicate 60 0 ++ [110, 101, 120, 116]

/-- What is opened on the file. -/
def laterOpened : StorageIO :=
  { file := laterFile,
    header :=
      { id := pole_magic, b_shift := 9, s_shift := 6, num_bat := 1, dirent_start := 1, threshold := 4096, sbat_start := 2,
        num_sbat := 1, mbat_start := 0xfffffffe, num_mbat := 0, bb_blocks := [0] ++ List.replicate 108 0xffffffff },
    bbat :=
      { blockSize := 512, data := [0xfffffffe, 0xfffffffe, 0xfffffffe, 0xfffffffe] ++ List.replicate 124 0xffffffff,
        bMaybeFragmented := true },
    sbat := { blockSize := 64, data := [0xfffffffe, 0xfffffffe] ++ List.replicate 126 0xffffffff, bMaybeFragmented := true },
    dirtree :=
      [{ valid := true, name := [82, 111, 111, 116, 32, 69, 110, 116, 114, 121], dir := true, size := 512, start := 3,
         prev := 0xffffffff, next := 0xffffffff, child := 1 },
       { valid := true, name := [99, 99], dir := true, size := 0, start := 0xffffffff, prev := 3, next := 0xffffffff,
         child := 2 },
       { valid := true, name := [100], dir := false, size := 4, start := 0, prev := 0xffffffff, next := 0xffffffff,
         child := 0xffffffff },
       { valid := true, name := [101], dir := false, size := 4, start := 1, prev := 0xffffffff, next := 0xffffffff,
         child := 0xffffffff }],
    sb_blocks := [3] }

def laterRequests : List Request := [.openStream [[101]] true 0, .use (.write 0 b!"next")]

/-- The storage after more requests. -/
def storageOn (abi : Abi) (w : Writer) (requests : List Request) : Res Writer := do
  let (S, _) ← (⟨w, []⟩ : Session).serve abi requests
  .ok S.w

theorem deleteFlush_quick (abi : Abi) (junk : Nat → Nat → UInt8) (w : Writer) (full : WStr) : w.deleteFlush abi junk full =
    (w.deleteByName abi full >>= fun x => if x.2 then (x.1.quick junk >>= fun w => .ok (w, x.2)) else .ok (x.1, x.2)) := by
  unfold Writer.deleteFlush
  refine congrArg _ (funext fun x => ?_)
  rw [quick_eq]

theorem used_storage : goodStorage.deleteFlush .windows (fun _ _ => 0) (pathText [[97]]) = .ok (usedStorage, true) := by
  rw [deleteFlush_quick]; decide +kernel

theorem later_storage : storageOn .windows usedStorage laterRequests = .ok laterStorage := by decide +kernel

theorem later_file : fileAfter laterStorage = .ok laterFile := by rw [fileAfter_quick]; decide +kernel

theorem later_opened : openStorage .windows (some laterFile) = .ok (.opened laterOpened) := by rw [openStorage_quick]; decide +kernel

end Fileid.Props
