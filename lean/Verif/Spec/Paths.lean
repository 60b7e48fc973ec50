import Verif.Spec.Directory
import Verif.Spec.Session
import Verif.Model.PoleStorage

/-!
# A storage as its user sees it: a map from paths to streams and storages
-/

namespace Fileid.Spec

open Pole

/-- What is at a path: a storage, or a stream with its size and the bytes known. -/
inductive Node
  | storage
  | stream (size : Nat) (byte : Nat → Option UInt8)

/-- The names of a path from the root on, and what is there. -/
abbrev FileMap := List WStr → Option Node

/-- The stream at `path` is made, of `n` bytes, with the storages on the way that are missing; what exists stays. -/
def FileMap.create (f : FileMap) (path : List WStr) (n : Nat) : FileMap := fun q =>
  match f q with
  | some node => some node
  | none => if q = path then some (.stream n fun _ => none) else if q <+: path then some .storage else none

/-- `data` is written at `pos` to the stream at `path`. -/
def FileMap.write (f : FileMap) (path : List WStr) (pos : Nat) (data : Bytes) : FileMap := fun q =>
  match f q with
  | some (.stream n byte) =>
    if q = path then some (.stream (max n (pos + data.length)) fun p =>
      if pos ≤ p ∧ p < pos + data.length then data[p - pos]? else byte p)
    else some (.stream n byte)
  | x => x

/-- The stream at `path` is made `n` bytes long. -/
def FileMap.resize (f : FileMap) (path : List WStr) (n : Nat) : FileMap := fun q =>
  match f q with
  | some (.stream m byte) => if q = path then some (.stream n fun p => if n ≤ p then none else byte p) else some (.stream m byte)
  | x => x

/-- The map of a storage without anything in it: there is the root. -/
def FileMap.empty : FileMap := fun q => if q = [] then some .storage else none

/-- What a user knows: the map, the path of each stream object and its position, and how many objects there are. -/
structure PathView where
  file : FileMap
  path : Nat → Option (List WStr)
  pos : Nat → Nat
  count : Nat

/-- What a user knows of a storage just created. -/
def PathView.empty : PathView := ⟨FileMap.empty, fun _ => none, fun _ => 0, 0⟩

/-- What is known after a request that was answered with `a`. -/
def PathView.after (v : PathView) : Request → Answer → PathView
  | .openStream path create n, .opened (some h) =>
    { file := if create then v.file.create path n else v.file, path := replaced v.path h (some path), pos := replaced v.pos h 0,
      count := v.count + 1 }
  | .use (.seek h pos), _ => if (v.path h).isSome then { v with pos := replaced v.pos h pos } else v
  | .use (.write h data), _ =>
    match v.path h with
    | none => v
    | some path => if data = [] then v else
        { v with file := v.file.write path (v.pos h) data, pos := replaced v.pos h (v.pos h + data.length) }
  | .use (.read h _), .reply (.got bytes) =>
    if (v.path h).isSome then { v with pos := replaced v.pos h (v.pos h + bytes.length) } else v
  | .use (.setSize h n), _ =>
    match v.path h with
    | none => v
    | some path => { v with file := v.file.resize path n }
  | _, _ => v

/-- A path of names that are not empty and have no slash, of units of the width of `wchar_t`. -/
def PathOk (abi : Abi) (path : List WStr) : Prop :=
  ∀ n ∈ path, n ≠ [] ∧ 47 ∉ n ∧ ∀ x ∈ n, x < 2 ^ (8 * abi.wcharBytes)

/-- The request is within its types; no stream is opened a second time; reading begins inside the stream. -/
def PathView.Sensible (abi : Abi) (v : PathView) : Request → Prop
  | .openStream path _ n => PathOk abi path ∧ n < 2 ^ 31 ∧ ∀ h, v.path h ≠ some path
  | .list path => PathOk abi path
  | .ask path => PathOk abi path
  | .askDir path => PathOk abi path
  | .use (.seek _ pos) => pos < 2 ^ 64
  | .use (.write h data) => v.pos h + data.length < 2 ^ 64
  | .use (.read h n) => v.pos h + n < 2 ^ 64 ∧ ∀ path size byte, v.path h = some path →
      v.file path = some (.stream size byte) → v.pos h ≤ size
  | .use (.setSize _ n) => n < 2 ^ 63

/-- The answer is right. A path opens exactly when it is that of a stream, or nothing is there and it is to be created. The names
listed are those below the storage, each once, in their order. A write stores all the data. A read of bytes that are all
known returns them, as many as asked for, or up to the end of the stream. -/
def PathView.Right (abi : Abi) (v : PathView) : Request → Answer → Prop
  | .openStream path create _, a =>
    a = .opened (match v.file path with
      | some (.stream _ _) => some v.count
      | some .storage => none
      | none => if create then some v.count else none)
  | .list path, a => ∃ l, a = .names l ∧
      match v.file path with
      | some .storage => l.Pairwise (NameBefore (wcharVal abi)) ∧ ∀ n, n ∈ l ↔ (v.file (path ++ [n])).isSome
      | _ => l = []
  | .ask path, a => a = .yes (v.file path).isSome
  | .askDir path, a => a = .yes (match v.file path with | some .storage => true | _ => false)
  | .use (.seek _ _), a => a = .reply .done
  | .use (.write h data), a => a = .reply (.wrote (if (v.path h).isSome then data.length else 0))
  | .use (.read h n), a => ∀ path size byte (bytes : Bytes), v.path h = some path → v.file path = some (.stream size byte) →
      bytes.length = min n (size - v.pos h) → (∀ k x, bytes[k]? = some x → byte (v.pos h + k) = some x) →
      a = .reply (.got (bytes.map some))
  | .use (.setSize _ _), a => a = .reply .done

/-- All requests of a history are sensible, given the answers. -/
def PathView.AllSensible (abi : Abi) : PathView → List Request → List Answer → Prop
  | v, r :: rs, a :: as => v.Sensible abi r ∧ (v.after r a).AllSensible abi rs as
  | _, _, _ => True

/-- All answers of a history are right. -/
def PathView.AllRight (abi : Abi) : PathView → List Request → List Answer → Prop
  | _, [], [] => True
  | v, r :: rs, a :: as => v.Right abi r a ∧ (v.after r a).AllRight abi rs as
  | _, _, _ => False

/-- What is known after a history. -/
def PathView.finally : PathView → List Request → List Answer → PathView
  | v, r :: rs, a :: as => (v.after r a).finally rs as
  | v, _, _ => v

/-- The directory `t` with contents `c` shows the map `f`: a path leads to an entry exactly when something is there,
and it is what the entry says. -/
structure Shows (t : DirTree) (kids : Nat → List Nat) (c : Contents) (f : FileMap) : Prop where
  sound : ∀ q k, Resolves kids (entryName t) 0 q k → ∃ e, t[k]? = some e ∧
    f q = some (if e.dir then .storage else .stream (c.size k) (c.byte k))
  complete : ∀ q node, f q = some node → ∃ k, Resolves kids (entryName t) 0 q k

/-- The session is as the user knows it. -/
structure Session.MatchesPaths (abi : Abi) (S : Session) (v : PathView) : Prop where
  inner : ∃ u kids, Session.Matches S u ∧ Shape abi S.w.io.dirtree kids ∧ Shows S.w.io.dirtree kids u.contents v.file ∧
    u.pos = v.pos ∧ (∀ h, u.stream h = none → v.path h = none) ∧
    ∀ h i, u.stream h = some i → ∃ p, v.path h = some p ∧ Resolves kids (entryName S.w.io.dirtree) 0 p i
  start : S.w.io.header.dirent_start < 0xfffffffc
  count : S.streams.length = v.count

end Fileid.Spec
