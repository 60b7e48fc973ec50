import Verif.Props.PoleUseSamples

/-!
# A compound file that is opened, changed and flushed, step by step, for the examples
-/

namespace Fileid.Props

open Spec Pole

/-- What is opened on `laterFile`, after its stream "e" was written anew. -/
def editStorage : Writer :=
  { io :=
      { file :=
          [208, 207, 17, 224, 161, 177, 26, 225] ++ List.replicate 16 0 ++ [62, 0, 3, 0, 254, 255, 9, 0, 6] ++ List.replicate 11
          0 ++ [1, 0, 0, 0, 1] ++ List.replicate 8 0 ++ [16, 0, 0, 2, 0, 0, 0, 1, 0, 0, 0, 254, 255, 255, 255] ++ List.replicate
          8 0 ++ List.replicate 432 255 ++ [254, 255, 255, 255, 254, 255, 255, 255, 254, 255, 255, 255, 254] ++ List.replicate
          499 255 ++ [82, 0, 111, 0, 111, 0, 116, 0, 32, 0, 69, 0, 110, 0, 116, 0, 114, 0, 121] ++ List.replicate 45 0 ++ [22,
          0, 5, 0] ++ List.replicate 8 255 ++ [1] ++ List.replicate 39 0 ++ [3, 0, 0, 0, 0, 2, 0, 0, 0, 0, 0, 0, 99, 0, 99] ++
          List.replicate 61 0 ++ [6, 0, 1, 1, 3, 0, 0, 0, 255, 255, 255, 255, 2] ++ List.replicate 39 0 ++ [255, 255, 255, 255]
          ++ List.replicate 8 0 ++ [100] ++ List.replicate 63 0 ++ [4, 0, 2, 1] ++ List.replicate 12 255 ++ List.replicate 40 0
          ++ [4, 0, 0, 0, 0, 0, 0, 0, 101] ++ List.replicate 63 0 ++ [4, 0, 2, 1] ++ List.replicate 12 255 ++ List.replicate 36
          0 ++ [1, 0, 0, 0, 4, 0, 0, 0, 0, 0, 0, 0, 254, 255, 255, 255, 254] ++ List.replicate 507 255 ++ [100, 101, 101, 112]
          ++ List.replicate 60 0 ++ [99, 104, 97, 110, 103, 101, 100],
        header :=
          { id := pole_magic, b_shift := 9, s_shift := 6, num_bat := 1, dirent_start := 1, threshold := 4096,
            sbat_start := 2, num_sbat := 1, mbat_start := 0xfffffffe, num_mbat := 0,
            bb_blocks := [0] ++ List.replicate 108 0xffffffff },
        bbat :=
          { blockSize := 512, data := [0xfffffffe, 0xfffffffe, 0xfffffffe, 0xfffffffe] ++ List.replicate 124 0xffffffff,
            bMaybeFragmented := true },
        sbat :=
          { blockSize := 64, data := [0xfffffffe, 0xfffffffe] ++ List.replicate 126 0xffffffff, bMaybeFragmented := true },
        dirtree :=
          [{ valid := true, name := [82, 111, 111, 116, 32, 69, 110, 116, 114, 121], dir := true, size := 512, start := 3,
             prev := 0xffffffff, next := 0xffffffff, child := 1 },
           { valid := true, name := [99, 99], dir := true, size := 0, start := 0xffffffff, prev := 3, next := 0xffffffff,
             child := 2 },
           { valid := true, name := [100], dir := false, size := 4, start := 0, prev := 0xffffffff, next := 0xffffffff,
             child := 0xffffffff },
           { valid := true, name := [101], dir := false, size := 7, start := 1, prev := 0xffffffff, next := 0xffffffff,
             child := 0xffffffff }],
        sb_blocks := [3] },
    writeable := true, headerDirty := false, bbatDirty := [], sbatDirty := [], dirDirty := [0], mbat_blocks := [],
    mbat_data := [], mbatDirty := false }

/-- Its file after a flush. -/
def editFile : Bytes :=
  [208, 207, 17, 224, 161, 177, 26, 225] ++ List.replicate 16 0 ++ [62, 0, 3, 0, 254, 255, 9, 0, 6] ++ List.replicate 11 0 ++
  [1, 0, 0, 0, 1] ++ List.replicate 8 0 ++ [16, 0, 0, 2, 0, 0, 0, 1, 0, 0, 0, 254, 255, 255, 255] ++ List.replicate 8 0 ++
  List.replicate 432 255 ++ [254, 255, 255, 255, 254, 255, 255, 255, 254, 255, 255, 255, 254] ++ List.replicate 499 255 ++ [82,
  0, 111, 0, 111, 0, 116, 0, 32, 0, 69, 0, 110, 0, 116, 0, 114, 0, 121] ++ List.replicate 45 0 ++ [22, 0, 5, 0] ++
  List.replicate 8 255 ++ [1] ++ List.replicate 39 0 ++ [3, 0, 0, 0, 0, 2, 0, 0, 0, 0, 0, 0, 99, 0, 99] ++ List.replicate 61 0
  ++ [6, 0, 1, 1, 3, 0, 0, 0, 255, 255, 255, 255, 2] ++ List.replicate 39 0 ++ [255, 255, 255, 255] ++ List.replicate 8 0 ++
  [100] ++ List.replicate 63 0 ++ [4, 0, 2, 1] ++ List.replicate 12 255 ++ List.replicate 40 0 ++ [4, 0, 0, 0, 0, 0, 0, 0, 101]
  ++ List.replicate 63 0 ++ [4, 0, 2, 1] ++ List.replicate 12 255 ++ List.replicate 36 0 ++ [1, 0, 0, 0, 7, 0, 0, 0, 0, 0, 0, 0,
  254, 255, 255, 255, 254] ++ List.replicate 507 255 ++ [100, 101, 101, 112] ++ List.replicate 60 0 ++ [99, 104, 97, 110, 103,
  101, 100]

/-- What is opened on that file. -/
def editOpened : StorageIO :=
  { file := editFile,
    header :=
      { id := pole_magic, b_shift := 9, s_shift := 6, num_bat := 1, dirent_start := 1, threshold := 4096, sbat_start := 2,
        num_sbat := 1, mbat_start := 0xfffffffe, num_mbat := 0, bb_blocks := [0] ++ List.replicate 108 0xffffffff },
    bbat :=
      { blockSize := 512, data := [0xfffffffe, 0xfffffffe, 0xfffffffe, 0xfffffffe] ++ List.replicate 124 0xffffffff,
        bMaybeFragmented := true },
    sbat := { blockSize := 64, data := [0xfffffffe, 0xfffffffe] ++ List.replicate 126 0xffffffff, bMaybeFragmented := true },
    dirtree :=
      [{ valid := true, name := [82, 111, 111, 116, 32, 69, 110, 116, 114, 121], dir := true, size := 512, start := 3,
         prev := 0xffffffff, next := 0xffffffff, child := 1 },
       { valid := true, name := [99, 99], dir := true, size := 0, start := 0xffffffff, prev := 3, next := 0xffffffff,
         child := 2 },
       { valid := true, name := [100], dir := false, size := 4, start := 0, prev := 0xffffffff, next := 0xffffffff,
         child := 0xffffffff },
       { valid := true, name := [101], dir := false, size := 7, start := 1, prev := 0xffffffff, next := 0xffffffff,
         child := 0xffffffff }],
    sb_blocks := [3] }

def editRequests : List Request := [.openStream [[101]] false 0, .use (.write 0 b!"changed")]

theorem edit_storage : storageOn .windows (reopened laterOpened) editRequests = .ok editStorage := by decide +kernel

theorem edit_file : fileAfter editStorage = .ok editFile := by rw [fileAfter_quick]; decide +kernel

theorem edit_opened : openStorage .windows (some editFile) = .ok (.opened editOpened) := by rw [openStorage_quick]; decide +kernel

/-- The file `laterFile` with a class identifier at its root: the directory is in sector 1, and the class identifier of an entry in its bytes
0x50 to 0x5f. -/
def classFile : Bytes := laterFile.set (512 * 2 + 0x50) 1

theorem class_opened : openStorage .windows (some classFile) = .ok (.opened { laterOpened with file := classFile }) := by rw [openStorage_quick]; decide +kernel

theorem class_storage : storageOn .windows (reopened { laterOpened with file := classFile }) editRequests =
    .ok { editStorage with io := { editStorage.io with file := editStorage.io.file.set (512 * 2 + 0x50) 1 } } := by decide +kernel

theorem class_file : fileAfter { editStorage with io := { editStorage.io with file := editStorage.io.file.set (512 * 2 + 0x50) 1 } } =
    .ok editFile := by rw [fileAfter_quick]; decide +kernel

end Fileid.Props
