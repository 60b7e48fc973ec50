import Verif.Props.PoleDir

/-!
# A directory that is changed
-/

namespace Fileid.Spec

open Pole Props

/-- The directory is well formed: the children of every entry in use are the entries `kids` lists, in a search tree of
their own; every link leads to an entry or is the mark for none (0xffffffff); entry 0 is the root, and a storage. -/
structure Shape (abi : Abi) (t : DirTree) (kids : Nat → List Nat) : Prop where
  tree : WellFormed abi t kids
  apart : ∀ i j, i ≠ j → ∀ x ∈ kids i, x ∉ kids j
  unused : ∀ i : Nat, (∀ e : DirEntry, t[i]? = some e → e.valid = false) → kids i = []
  links : ∀ (j : Nat) (e : DirEntry), t[j]? = some e → e.valid = true → (e.prev < t.length ∨ End ≤ e.prev) ∧ (e.next < t.length ∨ End ≤ e.next) ∧
    (e.child < t.length ∨ End ≤ e.child)
  short : t.length ≤ End
  root : ∃ e : DirEntry, t[0]? = some e ∧ e.valid = true ∧ e.dir = true

end Fileid.Spec
