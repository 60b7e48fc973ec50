import Verif.Model.PoleGetch

/-!
# What reading a stream returns
-/

namespace Fileid.Spec

open Pole

/-- The answers of a stream that holds `bytes`, read from position `pos` on: a byte and one position further, or nothing at the
end; or as many bytes as there are. -/
def readReplies (bytes : Bytes) : Nat → List ReadCall → List ReadReply
  | _, [] => []
  | _, .seek pos :: cs => .done :: readReplies bytes pos cs
  | pos, .getch :: cs => .char bytes[pos]? :: readReplies bytes (if pos < bytes.length then pos + 1 else pos) cs
  | pos, .read n :: cs =>
    let got := (bytes.drop pos).take n
    .got (got.map some) :: readReplies bytes (pos + got.length) cs

/-- Positions and lengths are those of the machine, and no block is read from behind the end. -/
def ReadsSensibly (bytes : Bytes) : Nat → List ReadCall → Prop
  | _, [] => True
  | _, .seek pos :: cs => pos < 2 ^ 64 ∧ ReadsSensibly bytes pos cs
  | pos, .getch :: cs => ReadsSensibly bytes (if pos < bytes.length then pos + 1 else pos) cs
  | pos, .read n :: cs => pos ≤ bytes.length ∧ pos + n < 2 ^ 64 ∧ ReadsSensibly bytes (pos + min n (bytes.length - pos)) cs

end Fileid.Spec
