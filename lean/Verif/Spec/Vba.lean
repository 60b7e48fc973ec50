import Verif.Spec.Bytes

/-!
# The compressed containers of MS-OVBA, section 2.4.1, independently of the model
-/

namespace Fileid.Spec.Ovba

/-- A token: a byte, or the instruction to repeat `length` bytes from `offset` bytes ago. -/
inductive Token
  | literal (b : UInt8)
  | copy (offset length : Nat)
  deriving DecidableEq

/-- `length` more bytes, each the one `offset` places before it. -/
def repeatFrom (offset : Nat) : Nat → Bytes → Bytes
  | 0, out => out
  | n + 1, out => repeatFrom offset n (out ++ [out.getD (out.length - offset) 0])

/-- The output behind one more token. -/
def Token.expand (out : Bytes) : Token → Bytes
  | .literal b => out ++ [b]
  | .copy offset length => repeatFrom offset length out

/-- The number of bits for the offset of a copy token when `d` bytes of the chunk are decompressed: the smallest
`k ≥ 4` with `d ≤ 2 ^ k` (section 2.4.1.3.19.1). -/
def IsBitCount (d k : Nat) : Prop := 4 ≤ k ∧ d ≤ 2 ^ k ∧ (k = 4 ∨ 2 ^ (k - 1) < d)

/-- The bytes of a token when `d` bytes of the chunk are decompressed. -/
inductive TokenBytes (d : Nat) : Token → Bytes → Prop
  | literal (b) : TokenBytes d (.literal b) [b]
  | copy {offset length k lo hi} : IsBitCount d k → 1 ≤ offset → offset ≤ d → 3 ≤ length →
      length ≤ 2 ^ (16 - k) + 2 →
      littleEndian [lo, hi] = (offset - 1) * 2 ^ (16 - k) + (length - 3) →
      TokenBytes d (.copy offset length) [lo, hi]

/-- `bs` is the data of the tokens `ts`, from `out` (the chunk so far) to `out'`. -/
inductive TokensBytes : Bytes → List Token → Bytes → Bytes → Prop
  | nil {out} : TokensBytes out [] [] out
  | cons {out t ts b bs out'} : TokenBytes out.length t b → TokensBytes (t.expand out) ts bs out' →
      TokensBytes out (t :: ts) (b ++ bs) out'

/-- A flag byte's bits tell which tokens are copies. -/
def Flags (flags : UInt8) (ts : List Token) : Prop :=
  ∀ i t, ts[i]? = some t → (flags.toNat.testBit i = true ↔ ∃ o l, t = .copy o l)

/-- The data of a compressed chunk (section 2.4.1.1.5): groups of a flag byte and eight tokens, the last group of
one to eight tokens. -/
inductive ChunkData : Bytes → Bytes → Bytes → Prop
  | last {out ts flags bs out'} : 1 ≤ ts.length → ts.length ≤ 8 → Flags flags ts → TokensBytes out ts bs out' →
      ChunkData out (flags :: bs) out'
  | more {out ts flags bs out' rest out''} : ts.length = 8 → Flags flags ts → TokensBytes out ts bs out' →
      ChunkData out' rest out'' → ChunkData out (flags :: bs ++ rest) out''

/-- A compressed chunk and what it decompresses to: at most 4096 bytes. The header (section 2.4.1.1.5) has the
chunk's length less three in bits 0 to 11, the number 3 in bits 12 to 14 and the flag for "compressed" in bit 15. -/
inductive Chunk : Bytes → Bytes → Prop
  | mk {lo hi data out} : ChunkData [] data out → out.length ≤ 4096 → data.length + 2 ≤ 4098 →
      littleEndian [lo, hi] = (data.length + 2 - 3) + 3 * 2 ^ 12 + 2 ^ 15 → Chunk (lo :: hi :: data) out

/-- A container: the byte 1 and its chunks. -/
def Container (bs out : Bytes) : Prop :=
  ∃ chunks : List (Bytes × Bytes), (∀ c ∈ chunks, Chunk c.1 c.2) ∧
    bs = 1 :: chunks.flatMap (·.1) ∧ out = chunks.flatMap (·.2)

end Fileid.Spec.Ovba
