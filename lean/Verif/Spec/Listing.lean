/-!
# The streams in a storage and in the storages within it
-/

namespace Fileid.Spec

/-- `names` leads from storage `i` through storages to a stream. -/
inductive Inside (kids : Nat → List Nat) (name : Nat → List Nat) (isDir : Nat → Bool) : Nat → List (List Nat) → Prop
  | stream {i j : Nat} : j ∈ kids i → isDir j = false → Inside kids name isDir i [name j]
  | storage {i j : Nat} {names : List (List Nat)} : j ∈ kids i → isDir j = true → Inside kids name isDir j names →
      Inside kids name isDir i (name j :: names)

/-- Names with slashes between them. -/
def slashed : List (List Nat) → List Nat
  | [] => []
  | [n] => n
  | n :: m :: ns => n ++ 47 :: slashed (m :: ns)

end Fileid.Spec
