import Verif.Model.PoleDelete
import Verif.Spec.Paths

/-!
# What deleting in a storage means
-/

namespace Fileid.Spec

open Pole

/-- What is at `path`, and all that is below it, is gone. -/
def FileMap.delete (f : FileMap) (path : List WStr) : FileMap := fun q => if path <+: q then none else f q

/-- All that is at `path` or below has a proper path, and nothing is below a stream. -/
def FileMap.TidyBelow (abi : Abi) (f : FileMap) (path : List WStr) : Prop :=
  (∀ q, path <+: q → (f q).isSome → PathOk abi q) ∧
  ∀ q n byte, path <+: q → f q = some (.stream n byte) → ∀ name, f (q ++ [name]) = none

/-- All that is at `P` or below in the directory has a proper path, and nothing is below a stream. -/
structure Tidy (abi : Abi) (t : DirTree) (kids : Nat → List Nat) (P : List WStr) : Prop where
  path : ∀ x k, P <+: x → Resolves kids (entryName t) 0 x k → PathOk abi x
  leaf : ∀ x k (e : DirEntry), P <+: x → Resolves kids (entryName t) 0 x k → t[k]? = some e → e.dir = false → kids k = []

/-- Every stream object is closed. -/
def PathView.closed (v : PathView) : PathView := ⟨v.file, fun _ => none, fun _ => 0, 0⟩

end Fileid.Spec
