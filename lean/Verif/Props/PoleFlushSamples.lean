import Verif.Lemmas.PoleQuickOpen
import Verif.Lemmas.PoleQuick
import Verif.Model.PoleStorage

/-!
# Storages that are flushed and opened again, step by step, for the examples
-/

namespace Fileid.Props

open Spec Pole

/-- The storage after a history of requests. -/
def storageAfter (abi : Abi) (requests : List Request) : Res Writer := do
  let w ← Writer.fresh
  let (S, _) ← (⟨w, []⟩ : Session).serve abi requests
  .ok S.w

/-- The file after a flush; the uninitialised memory happens to be zero. -/
def fileAfter (w : Writer) : Res Bytes := do
  let w ← w.flush fun _ _ => 0
  .ok w.io.file

/-- What a history of requests of a storage that was opened on a file returns. -/
def answersOf (abi : Abi) (requests : List Request) : OpenResult → Res (List Answer)
  | .opened io => do
    let (_, answers) ← (⟨reopened io, []⟩ : Session).serve abi requests
    .ok answers
  | _ => .throw .runtimeError

/-- Requests, a flush, and more requests of the storage opened again. -/
def flushAnd (abi : Abi) (first second : List Request) : Res (List Answer) := do
  let w ← storageAfter abi first
  let file ← fileAfter w
  let io ← openStorage abi (some file)
  answersOf abi second io

theorem fileAfter_quick (w : Writer) : fileAfter w = (w.quick fun _ _ => 0) >>= fun w => .ok w.io.file := by
  rw [quick_eq]; rfl

theorem flushAnd_eq {abi : Abi} {first second : List Request} {w : Writer} {file : Bytes} {io : OpenResult} {answers : List Answer}
    (h1 : storageAfter abi first = .ok w) (h2 : fileAfter w = .ok file) (h3 : openStorage abi (some file) = .ok io)
    (h4 : answersOf abi second io = .ok answers) : flushAnd abi first second = .ok answers := by
  unfold flushAnd
  rw [h1, Res.bind_ok, h2, Res.bind_ok, h3, Res.bind_ok, h4]

theorem flushAnd_ub {abi : Abi} {first second : List Request} {w : Writer} {file : Bytes} {u : UB}
    (h1 : storageAfter abi first = .ok w) (h2 : fileAfter w = .ok file) (h3 : openStorage abi (some file) = .ub u) :
    flushAnd abi first second = .ub u := by
  unfold flushAnd
  rw [h1, Res.bind_ok, h2, Res.bind_ok, h3]
  rfl

def goodRequests : List Request :=
  [.openStream [[99, 99], [100]] true 0, .openStream [[97]] true 0, .use (.write 0 b!"deep"), .use (.write 1 b!"flat")]

def fourRequests : List Request :=
  [.openStream [[98]] true 0, .use (.write 0 b!"x"), .openStream [[99]] true 0, .openStream [[100]] true 0,
   .openStream [[101]] true 0, .use (.write 3 b!"x")]

def namesRequests : List Request :=
  [.openStream [[256, 257]] true 0, .openStream [List.replicate 33 97] true 0, .use (.write 0 b!"x")]

def wideRequests : List Request := [.openStream [[98, 99]] true 0, .use (.write 0 b!"x")]

/-- A storage with the streams "cc/d" and "a". -/
def goodStorage : Writer :=
  { io := { file := List.replicate 2048 0 ++ [100, 101, 101, 112] ++ List.replicate 60 0 ++ [102, 108, 97, 116],
            header := { id := pole_magic, b_shift := 9, s_shift := 6, num_bat := 1, dirent_start := 1, threshold := 4096,
                        sbat_start := 2, num_sbat := 1, mbat_start := 0xfffffffe, num_mbat := 0, bb_blocks := [0] ++
                        List.replicate 108 0xffffffff }, bbat := { blockSize := 512, data := [0xfffffffe, 0xfffffffe, 0xfffffffe,
                                                                   0xfffffffe] ++ List.replicate 124 0xffffffff },
            sbat := { blockSize := 64, data := [0xfffffffe, 0xfffffffe] ++ List.replicate 126 0xffffffff },
            dirtree := [{ valid := true, name := [82, 111, 111, 116, 32, 69, 110, 116, 114, 121], dir := true, size := 0,
                          start := 0xffffffff, prev := 0xffffffff, next := 0xffffffff, child := 1 }, { valid := true, name := [99,
                                                                                                       99], dir := true,
                                                                                                       size := 0,
                                                                                                       start := 0xfffffffe,
                                                                                                       prev := 3,
                                                                                                       next := 0xffffffff,
                                                                                                       child := 2 },
            { valid := true, name := [100], dir := false, size := 4, start := 0, prev := 0xffffffff, next := 0xffffffff,
              child := 0xffffffff }, { valid := true, name := [97], dir := false, size := 4, start := 1, prev := 0xffffffff,
                                       next := 0xffffffff, child := 0xffffffff }], sb_blocks := [3] }, writeable := true,
    headerDirty := true, bbatDirty := [0], sbatDirty := [0], dirDirty := [0], mbat_blocks := [], mbat_data := [],
    mbatDirty := false }

/-- Its file after a flush. -/
def goodFile : Bytes :=
  [208, 207, 17, 224, 161, 177, 26, 225] ++ List.replicate 16 0 ++ [62, 0, 3, 0, 254, 255, 9, 0, 6] ++ List.replicate 11 0 ++ [1,
    0, 0, 0, 1] ++ List.replicate 8 0 ++ [16, 0, 0, 2, 0, 0, 0, 1, 0, 0, 0, 254, 255, 255, 255] ++ List.replicate 8 0 ++
    List.replicate 432 255 ++ [254, 255, 255, 255, 254, 255, 255, 255, 254, 255, 255, 255, 254] ++ List.replicate 499 255 ++ [82,
    0, 111, 0, 111, 0, 116, 0, 32, 0, 69, 0, 110, 0, 116, 0, 114, 0, 121] ++ List.replicate 45 0 ++ [22, 0, 5, 0] ++
    List.replicate 8 255 ++ [1] ++ List.replicate 39 0 ++ [3, 0, 0, 0, 0, 2, 0, 0, 0, 0, 0, 0, 99, 0, 99] ++
    List.replicate 61 0 ++ [6, 0, 1, 1, 3, 0, 0, 0, 255, 255, 255, 255, 2] ++ List.replicate 39 0 ++ [255, 255, 255, 255] ++
    List.replicate 8 0 ++ [100] ++ List.replicate 63 0 ++ [4, 0, 2, 1] ++ List.replicate 12 255 ++ List.replicate 40 0 ++ [4, 0,
    0, 0, 0, 0, 0, 0, 97] ++ List.replicate 63 0 ++ [4, 0, 2, 1] ++ List.replicate 12 255 ++ List.replicate 36 0 ++ [1, 0, 0, 0,
    4, 0, 0, 0, 0, 0, 0, 0, 254, 255, 255, 255, 254] ++ List.replicate 507 255 ++ [100, 101, 101, 112] ++ List.replicate 60 0 ++
    [102, 108, 97, 116]

/-- What is opened on the file. -/
def goodOpened : StorageIO :=
  { file := goodFile, header := { id := pole_magic, b_shift := 9, s_shift := 6, num_bat := 1, dirent_start := 1,
                                  threshold := 4096, sbat_start := 2, num_sbat := 1, mbat_start := 0xfffffffe, num_mbat := 0,
                                  bb_blocks := [0] ++ List.replicate 108 0xffffffff }, bbat := { blockSize := 512,
                                                                                                 data := [0xfffffffe, 0xfffffffe,
                                                                                                 0xfffffffe, 0xfffffffe] ++
                                                                                                 List.replicate 124 0xffffffff },
    sbat := { blockSize := 64, data := [0xfffffffe, 0xfffffffe] ++ List.replicate 126 0xffffffff }, dirtree := [{ valid := true,
                                                                                                                  name := [82,
                                                                                                                  111, 111, 116,
                                                                                                                  32, 69, 110,
                                                                                                                  116, 114, 121],
                                                                                                                  dir := true,
                                                                                                                  size := 512,
                                                                                                                  start := 3,
                                                                                                                  prev := 0xffffffff,
                                                                                                                  next := 0xffffffff,
                                                                                                                  child := 1 },
    { valid := true, name := [99, 99], dir := true, size := 0, start := 0xffffffff, prev := 3, next := 0xffffffff, child := 2 },
    { valid := true, name := [100], dir := false, size := 4, start := 0, prev := 0xffffffff, next := 0xffffffff,
      child := 0xffffffff }, { valid := true, name := [97], dir := false, size := 4, start := 1, prev := 0xffffffff,
                               next := 0xffffffff, child := 0xffffffff }], sb_blocks := [3] }

/-- A storage with four streams. -/
def fourStorage : Writer :=
  { io := { file := List.replicate 2048 0 ++ [120] ++ List.replicate 63 0 ++ [120], header := { id := pole_magic, b_shift := 9,
                                                                                                s_shift := 6, num_bat := 1,
                                                                                                dirent_start := 1,
                                                                                                threshold := 4096,
                                                                                                sbat_start := 2, num_sbat := 1,
                                                                                                mbat_start := 0xfffffffe,
                                                                                                num_mbat := 0, bb_blocks := [0] ++
                                                                                                List.replicate 108 0xffffffff },
            bbat := { blockSize := 512, data := [0xfffffffe, 4, 0xfffffffe, 0xfffffffe, 0xfffffffe] ++
                      List.replicate 123 0xffffffff }, sbat := { blockSize := 64, data := [0xfffffffe, 0xfffffffe] ++
                                                                 List.replicate 126 0xffffffff }, dirtree := [{ valid := true,
                                                                                                                name := [82, 111,
                                                                                                                111, 116, 32, 69,
                                                                                                                110, 116, 114,
                                                                                                                121], dir := true,
                                                                                                                size := 0,
                                                                                                                start := 0xffffffff,
                                                                                                                prev := 0xffffffff,
                                                                                                                next := 0xffffffff,
                                                                                                                child := 1 },
            { valid := true, name := [98], dir := false, size := 1, start := 0, prev := 0xffffffff, next := 2,
              child := 0xffffffff }, { valid := true, name := [99], dir := false, size := 0, start := 0xfffffffe,
                                       prev := 0xffffffff, next := 3, child := 0xffffffff }, { valid := true, name := [100],
                                                                                               dir := false, size := 0,
                                                                                               start := 0xfffffffe,
                                                                                               prev := 0xffffffff, next := 4,
                                                                                               child := 0xffffffff },
            { valid := true, name := [101], dir := false, size := 1, start := 1, prev := 0xffffffff, next := 0xffffffff,
              child := 0xffffffff }], sb_blocks := [3] }, writeable := true, headerDirty := true, bbatDirty := [0],
    sbatDirty := [0], dirDirty := [0, 1], mbat_blocks := [], mbat_data := [], mbatDirty := false }

/-- Its file after a flush. -/
def fourFile : Bytes :=
  [208, 207, 17, 224, 161, 177, 26, 225] ++ List.replicate 16 0 ++ [62, 0, 3, 0, 254, 255, 9, 0, 6] ++ List.replicate 11 0 ++ [1,
    0, 0, 0, 1] ++ List.replicate 8 0 ++ [16, 0, 0, 2, 0, 0, 0, 1, 0, 0, 0, 254, 255, 255, 255] ++ List.replicate 8 0 ++
    List.replicate 432 255 ++ [254, 255, 255, 255, 4, 0, 0, 0, 254, 255, 255, 255, 254, 255, 255, 255, 254] ++
    List.replicate 495 255 ++ [82, 0, 111, 0, 111, 0, 116, 0, 32, 0, 69, 0, 110, 0, 116, 0, 114, 0, 121] ++ List.replicate 45 0 ++
    [22, 0, 5, 0] ++ List.replicate 8 255 ++ [1] ++ List.replicate 39 0 ++ [3, 0, 0, 0, 0, 2, 0, 0, 0, 0, 0, 0, 98] ++
    List.replicate 63 0 ++ [4, 0, 2, 1, 255, 255, 255, 255, 2, 0, 0, 0, 255, 255, 255, 255] ++ List.replicate 40 0 ++ [1, 0, 0, 0,
    0, 0, 0, 0, 99] ++ List.replicate 63 0 ++ [4, 0, 2, 1, 255, 255, 255, 255, 3, 0, 0, 0, 255, 255, 255, 255] ++
    List.replicate 36 0 ++ [254, 255, 255, 255] ++ List.replicate 8 0 ++ [100] ++ List.replicate 63 0 ++ [4, 0, 2, 1, 255, 255,
    255, 255, 4, 0, 0, 0, 255, 255, 255, 255] ++ List.replicate 36 0 ++ [254, 255, 255, 255] ++ List.replicate 8 0 ++ [254, 255,
    255, 255, 254] ++ List.replicate 507 255 ++ [120] ++ List.replicate 63 0 ++ [120] ++ List.replicate 447 0 ++ [101] ++
    List.replicate 63 0 ++ [4, 0, 2, 1] ++ List.replicate 12 255 ++ List.replicate 36 0 ++ [1, 0, 0, 0, 1, 0, 0, 0, 0, 0, 0, 0]

/-- A storage with a name of units above 255 and a name of 33 units. -/
def namesStorage : Writer :=
  { io := { file := List.replicate 2048 0 ++ [120], header := { id := pole_magic, b_shift := 9, s_shift := 6, num_bat := 1,
                                                                dirent_start := 1, threshold := 4096, sbat_start := 2,
                                                                num_sbat := 1, mbat_start := 0xfffffffe, num_mbat := 0,
                                                                bb_blocks := [0] ++ List.replicate 108 0xffffffff },
            bbat := { blockSize := 512, data := [0xfffffffe, 0xfffffffe, 0xfffffffe, 0xfffffffe] ++
                      List.replicate 124 0xffffffff }, sbat := { blockSize := 64, data := [0xfffffffe] ++
                                                                 List.replicate 127 0xffffffff }, dirtree := [{ valid := true,
                                                                                                                name := [82, 111,
                                                                                                                111, 116, 32, 69,
                                                                                                                110, 116, 114,
                                                                                                                121], dir := true,
                                                                                                                size := 0,
                                                                                                                start := 0xffffffff,
                                                                                                                prev := 0xffffffff,
                                                                                                                next := 0xffffffff,
                                                                                                                child := 1 },
            { valid := true, name := [256, 257], dir := false, size := 1, start := 0, prev := 0xffffffff, next := 2,
              child := 0xffffffff }, { valid := true, name := List.replicate 33 97, dir := false, size := 0, start := 0xfffffffe,
                                       prev := 0xffffffff, next := 0xffffffff, child := 0xffffffff }], sb_blocks := [3] },
    writeable := true, headerDirty := true, bbatDirty := [0], sbatDirty := [0], dirDirty := [0], mbat_blocks := [],
    mbat_data := [], mbatDirty := false }

/-- Its file after a flush. -/
def namesFile : Bytes :=
  [208, 207, 17, 224, 161, 177, 26, 225] ++ List.replicate 16 0 ++ [62, 0, 3, 0, 254, 255, 9, 0, 6] ++ List.replicate 11 0 ++ [1,
    0, 0, 0, 1] ++ List.replicate 8 0 ++ [16, 0, 0, 2, 0, 0, 0, 1, 0, 0, 0, 254, 255, 255, 255] ++ List.replicate 8 0 ++
    List.replicate 432 255 ++ [254, 255, 255, 255, 254, 255, 255, 255, 254, 255, 255, 255, 254] ++ List.replicate 499 255 ++ [82,
    0, 111, 0, 111, 0, 116, 0, 32, 0, 69, 0, 110, 0, 116, 0, 114, 0, 121] ++ List.replicate 45 0 ++ [22, 0, 5, 0] ++
    List.replicate 8 255 ++ [1] ++ List.replicate 39 0 ++ [3, 0, 0, 0, 0, 2] ++ List.replicate 8 0 ++ [1] ++
    List.replicate 61 0 ++ [6, 0, 2, 1, 255, 255, 255, 255, 2, 0, 0, 0, 255, 255, 255, 255] ++ List.replicate 40 0 ++ [1, 0, 0, 0,
    0, 0, 0, 0, 97, 0, 97, 0, 97, 0, 97, 0, 97, 0, 97, 0, 97, 0, 97, 0, 97, 0, 97, 0, 97, 0, 97, 0, 97, 0, 97, 0, 97, 0, 97, 0,
    97, 0, 97, 0, 97, 0, 97, 0, 97, 0, 97, 0, 97, 0, 97, 0, 97, 0, 97, 0, 97, 0, 97, 0, 97, 0, 97, 0, 97, 0, 97, 0, 66, 0, 2,
    1] ++ List.replicate 12 255 ++ List.replicate 36 0 ++ [254, 255, 255, 255] ++ List.replicate 136 0 ++ [254] ++
    List.replicate 511 255 ++ [120]

/-- What is opened on the file. -/
def namesOpened : StorageIO :=
  { file := namesFile, header := { id := pole_magic, b_shift := 9, s_shift := 6, num_bat := 1, dirent_start := 1,
                                   threshold := 4096, sbat_start := 2, num_sbat := 1, mbat_start := 0xfffffffe, num_mbat := 0,
                                   bb_blocks := [0] ++ List.replicate 108 0xffffffff }, bbat := { blockSize := 512,
                                                                                                  data := [0xfffffffe, 0xfffffffe,
                                                                                                  0xfffffffe, 0xfffffffe] ++
                                                                                                  List.replicate 124 0xffffffff },
    sbat := { blockSize := 64, data := [0xfffffffe] ++ List.replicate 127 0xffffffff }, dirtree := [{ valid := true, name := [82,
                                                                                                      111, 111, 116, 32, 69, 110,
                                                                                                      116, 114, 121], dir := true,
                                                                                                      size := 512, start := 3,
                                                                                                      prev := 0xffffffff,
                                                                                                      next := 0xffffffff,
                                                                                                      child := 1 },
    { valid := true, name := [], dir := false, size := 1, start := 0, prev := 0xffffffff, next := 2, child := 0xffffffff },
    { valid := true, name := List.replicate 32 97, dir := false, size := 0, start := 0xfffffffe, prev := 0xffffffff,
      next := 0xffffffff, child := 0xffffffff }, { valid := false, name := [], dir := true, size := 0, start := 0, prev := 0,
                                                   next := 0, child := 0 }], sb_blocks := [3] }

/-- A storage made on Linux. -/
def wideStorage : Writer :=
  { io := { file := List.replicate 2048 0 ++ [120], header := { id := pole_magic, b_shift := 9, s_shift := 6, num_bat := 1,
                                                                dirent_start := 1, threshold := 4096, sbat_start := 2,
                                                                num_sbat := 1, mbat_start := 0xfffffffe, num_mbat := 0,
                                                                bb_blocks := [0] ++ List.replicate 108 0xffffffff },
            bbat := { blockSize := 512, data := [0xfffffffe, 0xfffffffe, 0xfffffffe, 0xfffffffe] ++
                      List.replicate 124 0xffffffff }, sbat := { blockSize := 64, data := [0xfffffffe] ++
                                                                 List.replicate 127 0xffffffff }, dirtree := [{ valid := true,
                                                                                                                name := [82, 111,
                                                                                                                111, 116, 32, 69,
                                                                                                                110, 116, 114,
                                                                                                                121], dir := true,
                                                                                                                size := 0,
                                                                                                                start := 0xffffffff,
                                                                                                                prev := 0xffffffff,
                                                                                                                next := 0xffffffff,
                                                                                                                child := 1 },
            { valid := true, name := [98, 99], dir := false, size := 1, start := 0, prev := 0xffffffff, next := 0xffffffff,
              child := 0xffffffff }], sb_blocks := [3] }, writeable := true, headerDirty := true, bbatDirty := [0],
    sbatDirty := [0], dirDirty := [0], mbat_blocks := [], mbat_data := [], mbatDirty := false }

/-- Its file after a flush. -/
def wideFile : Bytes :=
  [208, 207, 17, 224, 161, 177, 26, 225] ++ List.replicate 16 0 ++ [62, 0, 3, 0, 254, 255, 9, 0, 6] ++ List.replicate 11 0 ++ [1,
    0, 0, 0, 1] ++ List.replicate 8 0 ++ [16, 0, 0, 2, 0, 0, 0, 1, 0, 0, 0, 254, 255, 255, 255] ++ List.replicate 8 0 ++
    List.replicate 432 255 ++ [254, 255, 255, 255, 254, 255, 255, 255, 254, 255, 255, 255, 254] ++ List.replicate 499 255 ++ [82,
    0, 111, 0, 111, 0, 116, 0, 32, 0, 69, 0, 110, 0, 116, 0, 114, 0, 121] ++ List.replicate 45 0 ++ [22, 0, 5, 0] ++
    List.replicate 8 255 ++ [1] ++ List.replicate 39 0 ++ [3, 0, 0, 0, 0, 2, 0, 0, 0, 0, 0, 0, 98, 0, 99] ++
    List.replicate 61 0 ++ [6, 0, 2, 1] ++ List.replicate 12 255 ++ List.replicate 40 0 ++ [1] ++ List.replicate 263 0 ++ [254] ++
    List.replicate 511 255 ++ [120]

/-- What is opened on the file. -/
def wideOpened : StorageIO :=
  { file := wideFile, header := { id := pole_magic, b_shift := 9, s_shift := 6, num_bat := 1, dirent_start := 1,
                                  threshold := 4096, sbat_start := 2, num_sbat := 1, mbat_start := 0xfffffffe, num_mbat := 0,
                                  bb_blocks := [0] ++ List.replicate 108 0xffffffff }, bbat := { blockSize := 512,
                                                                                                 data := [0xfffffffe, 0xfffffffe,
                                                                                                 0xfffffffe, 0xfffffffe] ++
                                                                                                 List.replicate 124 0xffffffff },
    sbat := { blockSize := 64, data := [0xfffffffe] ++ List.replicate 127 0xffffffff }, dirtree := [{ valid := true,
                                                                                                      name := [7274578, 7602287,
                                                                                                      4522016, 7602286, 7929970,
                                                                                                      0, 0, 0, 0, 0], dir := true,
                                                                                                      size := 512, start := 3,
                                                                                                      prev := 0xffffffff,
                                                                                                      next := 0xffffffff,
                                                                                                      child := 1 },
    { valid := true, name := [6488162, 0], dir := false, size := 1, start := 0, prev := 0xffffffff, next := 0xffffffff,
      child := 0xffffffff }, { valid := false, name := [], dir := true, size := 0, start := 0, prev := 0, next := 0, child := 0 },
    { valid := false, name := [], dir := true, size := 0, start := 0, prev := 0, next := 0, child := 0 }], sb_blocks := [3] }

/-- A storage just created. -/
def emptyStorage : Writer :=
  { io := { file := [], header := { id := pole_magic, b_shift := 9, s_shift := 6, num_bat := 1, dirent_start := 1,
                                    threshold := 4096, sbat_start := 2, num_sbat := 1, mbat_start := 0xfffffffe, num_mbat := 0,
                                    bb_blocks := [0] ++ List.replicate 108 0xffffffff }, bbat := { blockSize := 512,
                                                                                                   data := [0xfffffffe,
                                                                                                   0xfffffffe, 0xfffffffe,
                                                                                                   0xfffffffe] ++
                                                                                                   List.replicate 124 0xffffffff },
            sbat := { blockSize := 64, data := List.replicate 128 0xffffffff }, dirtree := [{ valid := true, name := [82, 111,
                                                                                              111, 116, 32, 69, 110, 116, 114,
                                                                                              121], dir := true, size := 0,
                                                                                              start := 0xffffffff,
                                                                                              prev := 0xffffffff,
                                                                                              next := 0xffffffff,
                                                                                              child := 0xffffffff }],
            sb_blocks := [3] }, writeable := true, headerDirty := true, bbatDirty := [0], sbatDirty := [], dirDirty := [0],
    mbat_blocks := [], mbat_data := [], mbatDirty := false }

/-- Its file after a flush. -/
def emptyFile : Bytes :=
  [208, 207, 17, 224, 161, 177, 26, 225] ++ List.replicate 16 0 ++ [62, 0, 3, 0, 254, 255, 9, 0, 6] ++ List.replicate 11 0 ++ [1,
    0, 0, 0, 1] ++ List.replicate 8 0 ++ [16, 0, 0, 2, 0, 0, 0, 1, 0, 0, 0, 254, 255, 255, 255] ++ List.replicate 8 0 ++
    List.replicate 432 255 ++ [254, 255, 255, 255, 254, 255, 255, 255, 254, 255, 255, 255, 254] ++ List.replicate 499 255 ++ [82,
    0, 111, 0, 111, 0, 116, 0, 32, 0, 69, 0, 110, 0, 116, 0, 114, 0, 121] ++ List.replicate 45 0 ++ [22, 0, 5, 0] ++
    List.replicate 12 255 ++ List.replicate 36 0 ++ [3, 0, 0, 0, 0, 2, 0, 0, 0, 0, 0, 0]

theorem good_storage : storageAfter .windows goodRequests = .ok goodStorage := by decide +kernel

theorem good_file : fileAfter goodStorage = .ok goodFile := by rw [fileAfter_quick]; decide +kernel

theorem good_opened : openStorage .windows (some goodFile) = .ok (.opened goodOpened) := by rw [openStorage_quick]; decide +kernel

theorem four_storage : storageAfter .windows fourRequests = .ok fourStorage := by decide +kernel

theorem four_file : fileAfter fourStorage = .ok fourFile := by rw [fileAfter_quick]; decide +kernel

theorem four_opened : openStorage .windows (some fourFile) = .ub .uninit := by rw [openStorage_quick]; decide +kernel

theorem names_storage : storageAfter .windows namesRequests = .ok namesStorage := by decide +kernel

theorem names_file : fileAfter namesStorage = .ok namesFile := by rw [fileAfter_quick]; decide +kernel

theorem names_opened : openStorage .windows (some namesFile) = .ok (.opened namesOpened) := by rw [openStorage_quick]; decide +kernel

theorem wide_storage : storageAfter .linux wideRequests = .ok wideStorage := by decide +kernel

theorem wide_file : fileAfter wideStorage = .ok wideFile := by rw [fileAfter_quick]; decide +kernel

theorem wide_opened : openStorage .linux (some wideFile) = .ok (.opened wideOpened) := by rw [openStorage_quick]; decide +kernel

theorem empty_storage : storageAfter .windows [] = .ok emptyStorage := by decide +kernel

theorem empty_file : fileAfter emptyStorage = .ok emptyFile := by rw [fileAfter_quick]; decide +kernel

theorem empty_opened : openStorage .windows (some emptyFile) = .ub .uninit := by rw [openStorage_quick]; decide +kernel

end Fileid.Props
