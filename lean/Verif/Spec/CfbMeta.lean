import Verif.Model.PoleFlush
import Verif.Spec.Cfb

/-!
# The list of the sectors of a large FAT

The header of a compound file names the first 109 sectors of the FAT; the others are listed in DIFAT sectors (MS-CFB 2.5, `Difat`).
The library keeps the list in memory: `mbat_data` are the sectors of the FAT behind the first 109, `mbat_blocks` the sectors the list is to
be written to.
-/

namespace Fileid.Spec

open Pole

/-- The list as the library makes it: it has all sectors of the FAT behind the first 109, there is a sector to write it to for every 63
of them, the header names the first of these and their number, and all these sectors are different and in use. -/
structure Indexed (w : Writer) : Prop where
  size : w.io.bbat.blockSize = 512
  slots : w.io.header.bb_blocks.length = 109
  count : w.mbat_data.length = w.io.header.num_bat - 109
  room : w.mbat_blocks.length = (w.mbat_data.length + 62) / 63
  blocks : w.io.header.num_mbat = w.mbat_blocks.length
  start : ∀ b, w.mbat_blocks[0]? = some b → w.io.header.mbat_start = b
  apart : (w.mbat_blocks ++ w.mbat_data).Nodup
  used : ∀ b ∈ w.mbat_blocks ++ w.mbat_data, ∃ v, w.io.bbat.data[b]? = some v ∧ v ≠ 0xffffffff

end Fileid.Spec
