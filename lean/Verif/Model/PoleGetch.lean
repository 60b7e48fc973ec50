import Verif.Model.PoleSession

/-!
# Model of reading a stream, in blocks and byte by byte (`fileid/oless/pole.h`)
-/

namespace Fileid.Pole

/-- A call of a member of `POLE::Stream` that does not change the stream (pole.h:2570-2602). -/
inductive ReadCall
  | seek (pos : Nat)
  | getch
  | read (maxlen : Nat)
  deriving DecidableEq, Repr

/-- What such a call returns: nothing, a byte (`none` for the result -1), or the bytes that were filled in. -/
inductive ReadReply
  | done
  | char (c : Option UInt8)
  | got (bytes : Mem)
  deriving DecidableEq, Repr

/-- pole.h:2580-2602, the calls; `read` is given a new array of `maxlen` bytes. -/
def WStream.readCall (w : Writer) (s : WStream) : ReadCall → Res (WStream × ReadReply)
  | .seek pos => .ok (s.seek pos, .done)
  | .getch => do
    let (c, s) ← s.getch w
    .ok (s, .char c)
  | .read maxlen => do
    let (n, data, s) ← s.read w (newMem maxlen) maxlen
    .ok (s, .got (data.take n))

/-- Several calls, and what each returns. -/
def WStream.readCalls (w : Writer) : WStream → List ReadCall → Res (List ReadReply)
  | _, [] => .ok []
  | s, c :: cs => do
    let (s, r) ← s.readCall w c
    let rs ← s.readCalls w cs
    .ok (r :: rs)

end Fileid.Pole
