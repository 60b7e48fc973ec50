import Verif.Model.PoleSession
import Verif.Spec.Storage

/-!
# What a user of several open streams relies on
-/

namespace Fileid.Spec

open Pole

/-- What a user knows: the contents of the streams, which stream each object is, and its position. -/
structure View where
  contents : Contents
  stream : Nat → Option Nat
  pos : Nat → Nat

/-- What is known after a call that returned `r`. -/
def View.after (v : View) : Call → Reply → View
  | .seek h pos, _ => if (v.stream h).isSome then { v with pos := replaced v.pos h pos } else v
  | .write h data, _ =>
    match v.stream h with
    | none => v
    | some i => if data = [] then v else
        { v with contents := v.contents.write i (v.pos h) data, pos := replaced v.pos h (v.pos h + data.length) }
  | .read h _, .got bytes => if (v.stream h).isSome then { v with pos := replaced v.pos h (v.pos h + bytes.length) } else v
  | .read _ _, _ => v
  | .setSize h n, _ =>
    match v.stream h with
    | none => v
    | some i => { v with contents := v.contents.resize i n }

/-- The call is within 64 bits; reading begins inside the stream. -/
def View.Sensible (v : View) : Call → Prop
  | .seek _ pos => pos < 2 ^ 64
  | .write h data => v.pos h + data.length < 2 ^ 64
  | .read h n => v.pos h + n < 2 ^ 64 ∧ ∀ i, v.stream h = some i → v.pos h ≤ v.contents.size i
  | .setSize _ n => n < 2 ^ 63

/-- What the call returns is right: a write stores all the data; a read of bytes that are all known returns them, as
many as asked for, or up to the end of the stream. -/
def View.Right (v : View) : Call → Reply → Prop
  | .seek _ _, r => r = .done
  | .write h data, r => r = .wrote (if (v.stream h).isSome then data.length else 0)
  | .read h n, r => ∀ i, v.stream h = some i → ∀ bytes : Bytes, bytes.length = min n (v.contents.size i - v.pos h) →
      v.contents.Has i (v.pos h) bytes → r = .got (bytes.map some)
  | .setSize _ _, r => r = .done

/-- All calls of a history are sensible, given what they returned. -/
def View.AllSensible : View → List Call → List Reply → Prop
  | v, c :: cs, r :: rs => v.Sensible c ∧ (v.after c r).AllSensible cs rs
  | _, _, _ => True

/-- Everything the calls of a history return is right. -/
def View.AllRight : View → List Call → List Reply → Prop
  | _, [], [] => True
  | v, c :: cs, r :: rs => v.Right c r ∧ (v.after c r).AllRight cs rs
  | _, _, _ => False

/-- What is known after a history. -/
def View.finally : View → List Call → List Reply → View
  | v, c :: cs, r :: rs => (v.after c r).finally cs rs
  | v, _, _ => v

/-- The session is as the user knows it: the storage can be changed and holds the contents, and every object belongs
to another stream and knows its sectors. -/
structure Session.Matches (S : Session) (v : View) : Prop where
  writeable : S.w.writeable = true
  holds : ∃ L, Holds S.w L v.contents ∧ ∀ (h : Nat) (s : WStream), S.streams[h]? = some s → s.blocks = L.chain s.idx
  stream : ∀ (h : Nat), v.stream h = (S.streams[h]?).map (·.idx)
  pos : ∀ (h : Nat) (s : WStream), S.streams[h]? = some s → s.pos = v.pos h
  entry : ∀ (h : Nat) (s : WStream), S.streams[h]? = some s → ∃ e, S.w.io.dirtree[s.idx]? = some e ∧ IsStream e
  distinct : ∀ (h h' : Nat) (s s' : WStream), S.streams[h]? = some s → S.streams[h']? = some s' → s.idx = s'.idx → h = h'

end Fileid.Spec
