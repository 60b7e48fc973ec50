import Verif.Model.Common

/-!
# Decompression of VBA streams (fileid/oless/vbahelper.hpp:262-267, 478-565)

Everything is written to the output buffer at `decompressedCurrent`, which then grows by one, and nothing is
written anywhere else. So the buffer is represented by the bytes written so far; the rest is zero
(`new unsigned char[…]{0}`), and `decompressedCurrent` is the number of bytes written.
-/

namespace Fileid.Vba

open Common

/-- vbahelper.hpp:262-264 `Extract_CompressedChunkSize`. -/
def chunkSize (header : Nat) : Nat := header % 4096 + 3

/-- vbahelper.hpp:265-267 `Extract_CompressedChunkFlag`. -/
def chunkFlag (header : Nat) : Nat := header / 32768 % 2

/-- vbahelper.hpp:502 `sig`. -/
def chunkSignature (header : Nat) : Nat := header / 4096 % 8

/-- `ceil(log2(d))` of vbahelper.hpp:529 for a difference of two `unsigned int`s. (Simplification: the
floating point functions are taken to be accurate enough for the ceiling to be exact, and the result for 0,
minus infinity, is replaced by 0, which the maximum with 4 hides.) -/
def ceilLog2 (d : Nat) : Nat := if d ≤ 1 then 0 else Nat.log2 (d - 1) + 1

/-- vbahelper.hpp:529 `bitCount`. -/
def bitCount (d : Nat) : Nat := max (ceilLog2 d) 4

/-- vbahelper.hpp:529-537: length and offset of a copy token, where `d` bytes of the chunk have been written.
A shift by a negative amount is undefined. -/
def unpack (token d : Nat) : Res (Nat × Nat) :=
  if bitCount d > 16 then .ub .badShift
  else
    let lengthMask := 0xFFFF >>> bitCount d
    let offsetMask := 0xFFFF - lengthMask
    .ok (u16 ((token &&& lengthMask) + 3), u16 (((token &&& offsetMask) >>> (16 - bitCount d)) + 1))

/-- `decompressedBuffer[decompressedCurrent] = x; decompressedCurrent++`. -/
def put (cap : Nat) (out : Bytes) (x : UInt8) : Res Bytes :=
  if out.length < cap then .ok (out ++ [x]) else .ub .oobWrite

/-- vbahelper.hpp:541-544, the loop that copies; `stop` is `copySource + copyTokenLength`. The first argument
bounds the iterations (`copyTokenLength`). -/
def copyLoop (cap stop : Nat) : Nat → Nat → Bytes → Res Bytes
  | 0, _, out => .ok out
  | k + 1, n, out =>
    if n < stop ∧ n < cap then do
      let out' ← put cap out (out.getD n 0)
      copyLoop cap stop k (n + 1) out'
    else .ok out

/-- vbahelper.hpp:517-547, one token. `start` is `decompressedChunkStart`. The new `compressedCurrent` and the
output. -/
def token (compressed : Bytes) (len cap start : Nat) (flag : Bool) (cur : Nat) (out : Bytes) :
    Res (Nat × Bytes) :=
  if flag = false then do
    let b ← rd compressed cur
    let out' ← put cap out b
    .ok (u32 (cur + 1), out')
  else do
    let t ← ReadUShort compressed len cur
    let lo ← unpack t (sub32 out.length start)
    let src := sub32 out.length lo.2
    let out' ← copyLoop cap (u32 (src + lo.1)) lo.1 src out
    .ok (u32 (cur + 2), out')

/-- vbahelper.hpp:514-549, the loop over the bits of a flag byte; the first argument is the number of bits left. -/
def tokenLoop (compressed : Bytes) (len cap start cend : Nat) (flags : UInt8) : Nat → Nat → Bytes → Res (Nat × Bytes)
  | 0, cur, out => .ok (cur, out)
  | k + 1, cur, out =>
    if cur < cend then do
      let r ← token compressed len cap start (flags.toNat.testBit (8 - (k + 1))) cur out
      tokenLoop compressed len cap start cend flags k r.1 r.2
    else tokenLoop compressed len cap start cend flags k cur out

/-- vbahelper.hpp:510-551, the token sequences of a compressed chunk; the first argument is the step budget. -/
def sequenceLoop (compressed : Bytes) (len cap start cend : Nat) : Nat → Nat → Bytes → Res (Nat × Bytes)
  | 0, _, _ => .fuel
  | fuel + 1, cur, out =>
    if cur < cend then do
      let flags ← rd compressed cur
      let cur' := u32 (cur + 1)
      if cur' < cend then do
        let r ← tokenLoop compressed len cap start cend flags 8 cur' out
        sequenceLoop compressed len cap start cend fuel r.1 r.2
      else sequenceLoop compressed len cap start cend fuel cur' out
    else .ok (cur, out)

/-- vbahelper.hpp:554-558, the loop for a raw chunk: `compressedEnd` bytes are copied; the first argument counts
those left. -/
def rawLoop (compressed : Bytes) (cap : Nat) : Nat → Nat → Bytes → Res (Nat × Bytes)
  | 0, cur, out => .ok (cur, out)
  | k + 1, cur, out => do
    let b ← rd compressed cur
    let out' ← put cap out b
    rawLoop compressed cap k (u32 (cur + 1)) out'

/-- vbahelper.hpp:495-560, the loop over the chunks; the first argument is the step budget. `none` stands for the
early return at 504. -/
def chunkLoop (compressed : Bytes) (len cap : Nat) : Nat → Nat → Bytes → Res (Option Bytes)
  | 0, _, _ => .fuel
  | fuel + 1, cur, out =>
    if cur < len then do
      let header ← ReadUShort compressed len cur
      if chunkSignature header ≠ 3 then .ok none
      else do
        let stop := u32 (cur + chunkSize header)
        let cend := if len < stop then len else stop
        let cur' := u32 (cur + 2)
        let r ← if chunkFlag header = 1 then sequenceLoop compressed len cap out.length cend (len + 1) cur' out
          else rawLoop compressed cap cend cur' out
        chunkLoop compressed len cap fuel r.1 r.2
    else .ok (some out)

/-- vbahelper.hpp:478-565 `Decompress`: the number of bytes decompressed and the buffer, if any. (Simplification:
memory for the buffer never runs out.) -/
def Decompress (len : Nat) (compressed : Bytes) : Res (Nat × Option Bytes) := do
  let cap := u32 (len * 1024)
  let b ← rd compressed 0
  if b ≠ 1 then .ok (0, none)
  else do
    let r ← chunkLoop compressed len cap (len + 1) 1 []
    match r with
    | none => .ok (0, none)
    | some out => .ok (out.length, some (out ++ List.replicate (cap - out.length) 0))

end Fileid.Vba
