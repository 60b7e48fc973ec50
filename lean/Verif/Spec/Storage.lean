import Verif.Model.PoleWrite
import Verif.Spec.Store

/-!
# What a storage that is being changed holds

`Contents` says what was written to the streams of a storage, in terms of the calls alone. `Holds` says that a storage
holds that: every stream has sectors of its own, and the bytes are in the file where the chains say.
-/

namespace Fileid.Spec

open Pole

/-- What is known about the streams, by the number of their entry: the size, and the bytes that were written (`none`
for a byte that was not). -/
structure Contents where
  size : Nat → Nat
  byte : Nat → Nat → Option UInt8

/-- `data` is written to stream `i` at `pos`. -/
def Contents.write (c : Contents) (i pos : Nat) (data : Bytes) : Contents where
  size := replaced c.size i (max (c.size i) (pos + data.length))
  byte j p := if j = i ∧ pos ≤ p ∧ p < pos + data.length then data[p - pos]? else c.byte j p

/-- Stream `i` is made `n` bytes long. -/
def Contents.resize (c : Contents) (i n : Nat) : Contents where
  size := replaced c.size i n
  byte j p := if j = i ∧ n ≤ p then none else c.byte j p

/-- `data` is what is known of stream `i` from `pos` on. -/
def Contents.Has (c : Contents) (i pos : Nat) (data : Bytes) : Prop :=
  ∀ k v, data[k]? = some v → c.byte i (pos + k) = some v

/-- Where the sectors of the big table and those of the small table are used. -/
structure Layout where
  big : Owner → List Nat
  small : Nat → List Nat

/-- The chain of stream `i`: it has sectors of one kind only. -/
def Layout.chain (L : Layout) (i : Nat) : List Nat := L.small i ++ L.big (.stream i)

/-- Where byte `p` of a chain of sectors of `bs` bytes is in the file: sector `n` begins at byte `bs * (n + 1)`. -/
def bigPlace (bs : Nat) (chain : List Nat) (p : Nat) : Option Nat := (chain[p / bs]?).map fun n => bs * (n + 1) + p % bs

/-- Where byte `p` of a chain of mini sectors of `ss` bytes is: mini sector `x` begins at byte `x * ss` of the mini
stream. -/
def smallPlace (bs ss : Nat) (mini chain : List Nat) (p : Nat) : Option Nat :=
  (chain[p / ss]?).bind fun x => bigPlace bs mini (x * ss + p % ss)

/-- An entry in use that is a stream. -/
def IsStream (e : DirEntry) : Prop := e.valid = true ∧ e.dir = false

/-- The tables are small enough for sector numbers of 32 bits. -/
def Fits (w : Writer) : Prop := w.io.bbat.data.length ≤ 0xfffffffc ∧ w.io.sbat.data.length ≤ 0xfffffffc

/-- Where byte `p` of the stream with number `i` and entry `e` is in the file. -/
def place (w : Writer) (L : Layout) (i : Nat) (e : DirEntry) (p : Nat) : Option Nat :=
  if e.size < w.io.header.threshold then
    smallPlace w.io.bbat.blockSize w.io.sbat.blockSize (L.big .mini) (L.small i) p
  else bigPlace w.io.bbat.blockSize (L.big (.stream i)) p

/-- The storage `w`, its sectors used as `L` says, holds the contents `c`. -/
structure Holds (w : Writer) (L : Layout) (c : Contents) : Prop where
  smallPos : 0 < w.io.sbat.blockSize
  bigPos : 0 < w.io.bbat.blockSize
  divides : w.io.sbat.blockSize ∣ w.io.bbat.blockSize
  bigLt : w.io.bbat.blockSize < 2 ^ 64
  big : Owned w.io.bbat.data L.big
  small : Owned w.io.sbat.data L.small
  mini : w.io.sb_blocks = L.big .mini
  miniFat : Begins w.io.header.sbat_start (L.big .miniFat)
  dir : Begins w.io.header.dirent_start (L.big .dir)
  inMini : ∀ i, ∀ x ∈ L.small i, x * w.io.sbat.blockSize / w.io.bbat.blockSize < (L.big .mini).length
  entry : ∀ i e, w.io.dirtree[i]? = some e → IsStream e → e.size = c.size i ∧
    (if e.size < w.io.header.threshold then Begins e.start (L.small i) ∧ L.big (.stream i) = []
     else Begins e.start (L.big (.stream i)) ∧ L.small i = [])
  other : ∀ i, (∀ e, w.io.dirtree[i]? = some e → ¬ IsStream e) → L.small i = [] ∧ L.big (.stream i) = []
  known : ∀ i p v, c.byte i p = some v → p < c.size i ∧ ∃ e a, w.io.dirtree[i]? = some e ∧ IsStream e ∧
    place w L i e p = some a ∧ w.io.file[a]? = some v

end Fileid.Spec
