import Verif.Model.PoleUse
import Verif.Spec.Delete
import Verif.Spec.Flush

/-!
# What a program knows of a storage that it writes to, deletes from, flushes and closes
-/

namespace Fileid.Spec

open Pole

/-- The request asks for nothing that cannot be stored: names have at most 32 units, each of one byte and not zero, and sizes have 32
bits. -/
def PathView.CanStore (v : PathView) : Request → Prop
  | .openStream path _ _ => ∀ n ∈ path, n.length ≤ 32 ∧ ∀ x ∈ n, 0 < x ∧ x < 256
  | .use (.write h data) => v.pos h + data.length < 2 ^ 32
  | .use (.setSize _ n) => n < 2 ^ 32
  | _ => True

/-- The action is sensible: so is its request, and it can be stored; the root is not deleted, nor is anything that is open or has
streams below streams. -/
def PathView.Fine (abi : Abi) (v : PathView) : Action → Prop
  | .request r => v.Sensible abi r ∧ v.CanStore r
  | .delete path _ => path ≠ [] ∧ PathOk abi path ∧ v.file.TidyBelow abi path ∧ ∀ h p, v.path h = some p → ¬ path <+: p
  | .flush _ _ => True
  | .close => True

/-- What is known after an action. A flush changes nothing. -/
def PathView.next (v : PathView) : Action → Outcome → PathView
  | .request r, .answer a => v.after r a
  | .delete path _, .deleted true => { v with file := v.file.delete path }
  | .close, _ => v.closed
  | _, _ => v

/-- The outcome is right: that of a request is the right answer; deleting says whether anything was there. -/
def PathView.Proper (abi : Abi) (v : PathView) : Action → Outcome → Prop
  | .request r, o => ∃ a, o = .answer a ∧ v.Right abi r a
  | .delete path _, o => o = .deleted (v.file path).isSome
  | .flush _ _, o => o = .done
  | .close, o => o = .done

/-- All actions of a history are sensible, given the outcomes. -/
def PathView.AllFine (abi : Abi) : PathView → List Action → List Outcome → Prop
  | v, a :: as, o :: os => v.Fine abi a ∧ (v.next a o).AllFine abi as os
  | _, _, _ => True

/-- All outcomes of a history are right. -/
def PathView.AllProper (abi : Abi) : PathView → List Action → List Outcome → Prop
  | _, [], [] => True
  | v, a :: as, o :: os => v.Proper abi a o ∧ (v.next a o).AllProper abi as os
  | _, _, _ => False

/-- What is known after a history. -/
def PathView.lastly : PathView → List Action → List Outcome → PathView
  | v, a :: as, o :: os => (v.next a o).lastly as os
  | v, _, _ => v

end Fileid.Spec
