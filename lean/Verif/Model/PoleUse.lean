import Verif.Model.PoleStorage
import Verif.Model.PoleFlush

/-!
# Model of the use of a `POLE::Storage` over time: requests, deleting, flushing and closing (`fileid/oless/pole.h`)
-/

namespace Fileid.Pole

/-- What a program does with a storage: a request, `Storage::deleteByName` (pole.h:2500-2503, 1762-1779), `Stream::flush` of stream
object `h` (2610-2614, 2422-2425), and the destruction of all stream objects (2555-2558), which leaves the storage as it
is. What the uninitialised memory happens to hold that goes into the file (`Model/PoleFlush.lean`) is part of the
action. -/
inductive Action
  | request (r : Request)
  | delete (path : List WStr) (junk : Nat → Nat → UInt8)
  | flush (h : Nat) (junk : Nat → Nat → UInt8)
  | close

/-- What an action returns. -/
inductive Outcome
  | answer (a : Answer)
  | deleted (b : Bool)
  | done
  deriving DecidableEq, Repr

/-- pole.h:1762-1779 `deleteByName`, with the flush that follows when something was deleted. -/
def Writer.deleteFlush (abi : Abi) (junk : Nat → Nat → UInt8) (w : Writer) (full : WStr) : Res (Writer × Bool) := do
  let (w, b) ← w.deleteByName abi full
  if b then do
    let w ← w.flush junk
    .ok (w, b)
  else .ok (w, b)

/-- pole.h:1762-1779, 2467-2503, 2549-2614, the actions. -/
def Session.act (abi : Abi) (S : Session) : Action → Res (Session × Outcome)
  | .request r => do
    let (S, a) ← S.request abi r
    .ok (S, .answer a)
  | .delete path junk => do
    let (w, b) ← S.w.deleteFlush abi junk (pathText path)
    .ok (⟨w, S.streams⟩, .deleted b)
  | .flush h junk =>
    match S.streams[h]? with
    | none => .ok (S, .done)
    | some _ => do
      let w ← S.w.flush junk
      .ok (⟨w, S.streams⟩, .done)
  | .close => .ok (⟨S.w, []⟩, .done)

/-- Several actions, and what each returns. -/
def Session.live (abi : Abi) : Session → List Action → Res (Session × List Outcome)
  | S, [] => .ok (S, [])
  | S, a :: as => do
    let (S, o) ← S.act abi a
    let (S, os) ← Session.live abi S as
    .ok (S, o :: os)

end Fileid.Pole
