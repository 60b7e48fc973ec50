import Verif.Spec.Cfb

/-!
# A storage that is changed: chains with owners, independently of the model
-/

namespace Fileid.Spec

/-- The sectors are linked in the table, each to the next, the last has a mark of a used sector (0xfffffffc to
0xfffffffe; 0xffffffff is the mark of a free one). -/
inductive Linked (fat : List Nat) : List Nat → Prop
  | last {s e : Nat} : fat[s]? = some e → 0xfffffffc ≤ e → e < 0xffffffff → Linked fat [s]
  | next {s n : Nat} {rest : List Nat} : fat[s]? = some n → n < 0xfffffffc → Linked fat (n :: rest) →
      Linked fat (s :: n :: rest)

/-- Every owner has a chain of its own (or none), and no sector has two owners. -/
structure Owned {ω : Type} (fat : List Nat) (own : ω → List Nat) : Prop where
  linked : ∀ i, own i ≠ [] → Linked fat (own i)
  apart : ∀ i j, i ≠ j → ∀ x ∈ own i, x ∉ own j

/-- Who can own sectors: the table of mini sectors, the mini stream, the directory, and stream number `i` of the
directory. -/
inductive Owner
  | miniFat
  | mini
  | dir
  | stream (i : Nat)
  deriving DecidableEq

/-- `s` is where the chain begins: its first sector, or a number that is no sector if there is none. -/
def Begins (s : Nat) (chain : List Nat) : Prop :=
  (chain = [] ∧ 0xfffffffc ≤ s) ∨ chain.head? = some s

/-- A function with one value replaced. -/
def replaced {ω α : Type} [DecidableEq ω] (f : ω → α) (i : ω) (a : α) : ω → α := fun j => if j = i then a else f j

end Fileid.Spec
