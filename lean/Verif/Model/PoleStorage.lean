import Verif.Model.PoleSession

/-!
# Model of the use of a `POLE::Storage` and its streams by path (`fileid/oless/pole.h`)
-/

namespace Fileid.Pole

/-- The text of a path: a slash before each name; a slash alone for the root. -/
def pathText (names : List WStr) : WStr := if names = [] then [47] else names.flatMap fun n => 47 :: n

/-- A call on a storage or on one of its streams: `Stream(storage, path, create, size)`, `entries`, `exists`,
`isDirectory` (pole.h:2467-2493, 2549-2552), and the calls of `Call`. -/
inductive Request
  | openStream (path : List WStr) (create : Bool) (size : Nat)
  | list (path : List WStr)
  | ask (path : List WStr)
  | askDir (path : List WStr)
  | use (c : Call)
  deriving DecidableEq, Repr

/-- What a request returns: the number of the stream object made (none when there is no stream), names, yes or no, or
what a call returns. -/
inductive Answer
  | opened (h : Option Nat)
  | names (l : List WStr)
  | yes (b : Bool)
  | reply (r : Reply)
  deriving DecidableEq, Repr

/-- pole.h:2467-2493, 2549-2610, the requests. -/
def Session.request (abi : Abi) (S : Session) : Request → Res (Session × Answer)
  | .openStream path create size => do
    let (w, s) ← S.w.stream abi (pathText path) create size
    match s with
    | none => .ok ({ S with w }, .opened none)
    | some s => .ok (⟨w, S.streams ++ [s]⟩, .opened (some S.streams.length))
  | .list path => do
    let l ← S.w.io.entries abi (pathText path)
    .ok (S, .names l)
  | .ask path => do
    let b ← S.w.io.exists abi (pathText path)
    .ok (S, .yes b)
  | .askDir path => do
    let b ← S.w.io.isDirectory abi (pathText path)
    .ok (S, .yes b)
  | .use c => do
    let (S, r) ← S.step c
    .ok (S, .reply r)

/-- Several requests, and what each returns. -/
def Session.serve (abi : Abi) : Session → List Request → Res (Session × List Answer)
  | S, [] => .ok (S, [])
  | S, r :: rs => do
    let (S, a) ← S.request abi r
    let (S, as) ← Session.serve abi S rs
    .ok (S, a :: as)

end Fileid.Pole
