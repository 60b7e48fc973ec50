import Verif.Model.PoleWrite

/-!
# Model of the use of `POLE::Stream` objects on one storage (`fileid/oless/pole.h`)
-/

namespace Fileid.Pole

/-- A storage and the streams that are open on it. -/
structure Session where
  w : Writer
  streams : List WStream
  deriving DecidableEq, Repr

/-- A call of a member of `POLE::Stream` (pole.h:2570-2610); `h` is the number of the stream object. -/
inductive Call
  | seek (h pos : Nat)
  | write (h : Nat) (data : Bytes)
  | read (h maxlen : Nat)
  | setSize (h newSize : Nat)
  deriving DecidableEq, Repr

/-- What a call returns: nothing, the number of bytes written, or the bytes read. -/
inductive Reply
  | done
  | wrote (n : Nat)
  | got (bytes : Mem)
  deriving DecidableEq, Repr

/-- pole.h:2570-2610, the calls. `read` is given a new array of `maxlen` bytes, and its reply is the part of it that
was filled. A call on an object that is not there (`io` is null) does nothing; a read then returns no bytes. -/
def Session.step (S : Session) : Call → Res (Session × Reply)
  | .seek h pos =>
    match S.streams[h]? with
    | none => .ok (S, .done)
    | some s => .ok ({ S with streams := S.streams.set h (s.seek pos) }, .done)
  | .write h data =>
    match S.streams[h]? with
    | none => .ok (S, .wrote 0)
    | some s => do
      let (w, s, n) ← s.write S.w data
      .ok (⟨w, S.streams.set h s⟩, .wrote n)
  | .read h maxlen =>
    match S.streams[h]? with
    | none => .ok (S, .got [])
    | some s => do
      let (n, data, s) ← s.read S.w (newMem maxlen) maxlen
      .ok ({ S with streams := S.streams.set h s }, .got (data.take n))
  | .setSize h newSize =>
    match S.streams[h]? with
    | none => .ok (S, .done)
    | some s => do
      let (w, s) ← s.setSize S.w newSize
      .ok (⟨w, S.streams.set h s⟩, .done)

/-- Several calls, and what each returns. -/
def Session.run : Session → List Call → Res (Session × List Reply)
  | S, [] => .ok (S, [])
  | S, c :: cs => do
    let (S, r) ← S.step c
    let (S, rs) ← Session.run S cs
    .ok (S, r :: rs)

end Fileid.Pole
