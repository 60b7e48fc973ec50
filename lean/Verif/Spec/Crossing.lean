import Verif.Model.PoleUse
import Verif.Spec.Paths

/-! # Requests that move a stream between the two kinds of sectors -/

namespace Fileid.Spec
open Fileid.Pole

/-- The request makes a stream of less than `threshold` bytes (4096 in all files the library makes) one of that size or more, or the
other way round, and there are bytes to keep. -/
def PathView.Crosses (threshold : Nat) (v : PathView) : Request → Prop
  | .use (.write h data) => ∃ path size byte, v.path h = some path ∧ v.file path = some (.stream size byte) ∧
      0 < size ∧ size < threshold ∧ threshold ≤ v.pos h + data.length ∧ data ≠ []
  | .use (.setSize h n) => ∃ path size byte, v.path h = some path ∧ v.file path = some (.stream size byte) ∧
      0 < size ∧ 0 < n ∧ ¬ (size < threshold ↔ n < threshold)
  | _ => False

/-- How many entries the request could add to the directory. -/
def entriesAdded : Request → Nat
  | .openStream path true _ => path.length
  | _ => 0

/-- The request makes the tables of the storage longer, and then needs what it added itself: it makes more than one entry, or writes
into a stream that has less than `threshold` bytes afterwards. -/
def PathView.Builds (threshold : Nat) (v : PathView) : Request → Prop
  | .openStream path create _ => create = true ∧ v.file path.dropLast = none
  | .use (.write h data) => ∃ path size byte, v.path h = some path ∧ v.file path = some (.stream size byte) ∧
      max size (v.pos h + data.length) < threshold ∧ data ≠ []
  | _ => False

/-- The action does not take a stream over the threshold, and makes at most 512 entries. -/
def PathView.Gentle (threshold : Nat) (v : PathView) : Action → Prop
  | .request q => entriesAdded q ≤ 512 ∧ ¬ v.Crosses threshold q
  | _ => True

/-- A storage far from the limits of the format: at most 2^30 sectors (512 GB), 2^26 small sectors (4 GB) and 2^20 entries. -/
def Roomy (w : Writer) : Prop :=
  w.io.bbat.data.length ≤ 2 ^ 30 ∧ w.io.sbat.data.length ≤ 2 ^ 26 ∧ w.io.dirtree.length ≤ 2 ^ 20

end Fileid.Spec
