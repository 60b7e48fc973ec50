import Verif.Base

/-!
# Byte sequences, independently of the model
-/

namespace Fileid.Spec

/-- `bs` stands in `content` at offset `off`. -/
def At (content : Bytes) (off : Nat) (bs : Bytes) : Prop :=
  ∃ pre post, content = pre ++ bs ++ post ∧ pre.length = off

/-- Number written most significant byte first. -/
def bigEndian (bs : Bytes) : Nat := bs.foldl (fun n b => n * 256 + b.toNat) 0

/-- Number written least significant byte first. -/
def littleEndian (bs : Bytes) : Nat := bigEndian bs.reverse

/-- Number written in the byte order the flag asks for. -/
def inOrder (big : Bool) (bs : Bytes) : Nat := if big then bigEndian bs else littleEndian bs

/-- Two's complement reading of `n < 2^w`. -/
def twosComplement (w n : Nat) : Int := if n < 2 ^ (w - 1) then n else (n : Int) - 2 ^ w

end Fileid.Spec
