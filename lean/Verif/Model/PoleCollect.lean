import Verif.Model.Pole

/-!
# The list of all streams of a storage (pole.h `CollectStreams`, `Storage::GetAllStreams`)
-/

namespace Fileid.Pole

/-- pole.h:954-958 `DirTree::entry(index)`, as what `if (c) queue.push(c)` pushes: nothing for a null pointer. -/
def pushed (t : DirTree) (index : Nat) : List Nat := if index < t.length then [index] else []

/-- pole.h:2518-2537 `CollectStreams`, from the point on where `queue` holds the given entries. The first argument is
the step budget; every step of the loop and every call takes one. The recursive call begins with the child of the
entry in a queue of its own. -/
def collect (t : DirTree) : Nat → List Nat → WStr → List WStr → Res (List WStr)
  | 0, _, _, _ => .fuel
  | _ + 1, [], _, result => .ok result
  | f + 1, e :: queue, path, result =>
    match t[e]? with
    | none => .ub .nullDeref
    | some d => do
      let result ← (if d.dir then collect t f (pushed t d.child) (path ++ d.name ++ [47]) result
        else .ok (result ++ [path ++ d.name]))
      collect t f (queue ++ pushed t d.prev ++ pushed t d.next) path result

/-- pole.h:2539-2545 `Storage::GetAllStreams`, within `fuel` steps. -/
def getAllStreams (abi : Abi) (t : DirTree) (fuel : Nat) (storageName : WStr) : Res (List WStr) := do
  match ← entryIdx abi t storageName with
  | none => .ok []
  | some i =>
    match t[i]? with
    | none => .ub .nullDeref
    | some e => if e.dir then collect t fuel (pushed t e.child) storageName [] else .ok []

end Fileid.Pole
