import Verif.Spec.Asf
import Verif.Spec.Bytes

/-!
# Which ASF files cannot be walked through

`w` is the number of bytes of an `unsigned long`: 4 on Windows, 8 on Linux. Numbers that have four bytes in the format are read with as
many, so what counts on Linux is what the number and the four bytes behind it are together.
-/

namespace Fileid.Spec.Asf

/-- The data of a header extension say that `inner` is there for further objects: a number at place 18 and as many bytes from
place 22 on. -/
def Holds (w : Nat) (data inner : Bytes) : Prop :=
  18 + w ≤ data.length ∧ 22 + inner.length ≤ data.length ∧ littleEndian ((data.drop 18).take w) = inner.length ∧
  inner = (data.drop 22).take inner.length

/-- The content of a header extension with which the walk comes to a place where it can read no object: after some objects something
is left that is too short for an object, or an object is cut off, or a header extension has such content. Headers are not passed
over: the walk goes on with their data. -/
inductive Stuck (w : Nat) : Bytes → Prop
  | short {tail : Bytes} : 0 < tail.length → tail.length < 24 → Stuck w tail
  | cut {id data : Bytes} {size : Nat} : id.length = 16 → 24 + data.length < size → size < 2 ^ 64 → Stuck w (id ++ leBytes 8 size ++ data)
  | after {id data rest : Bytes} : id.length = 16 → id ≠ headerId → Stuck w rest → Stuck w (frame id data ++ rest)
  | into {data rest : Bytes} : Stuck w (data ++ rest) → Stuck w (frame headerId data ++ rest)
  | inside {data inner rest : Bytes} : Holds w data inner → Stuck w inner → Stuck w (frame headerExtId data ++ rest)

/-- One of the first objects of a header, as many as it says it has, is a header extension with such content: the number of objects,
the length of what is left of the header, and what is left of the file. -/
inductive StuckHeader (w : Nat) : Nat → Nat → Bytes → Prop
  | here {data inner rest : Bytes} {k left : Nat} : 0 < left → Holds w data inner → Stuck w inner →
      StuckHeader w (k + 1) left (frame headerExtId data ++ rest)
  | later {id data rest : Bytes} {k left : Nat} : 0 < left → id.length = 16 → id ≠ headerId →
      StuckHeader w k (left - (24 + data.length)) rest → StuckHeader w (k + 1) left (frame id data ++ rest)
  | into {data rest : Bytes} {k left : Nat} : 0 < left → StuckHeader w k (left - 24) (data ++ rest) →
      StuckHeader w (k + 1) left (frame headerId data ++ rest)

/-- The file (of which the program looks at 65536 bytes) begins with such a header, or with such an extension. -/
def StuckFile (w : Nat) (content : Bytes) : Prop :=
  (∃ data rest, content.take 65536 = frame headerId data ++ rest ∧ 6 ≤ data.length ∧ w ≤ data.length ∧
    StuckHeader w (littleEndian (data.take w)) (data.length - 6) (data.drop 6 ++ rest)) ∨
  ∃ data inner rest, content.take 65536 = frame headerExtId data ++ rest ∧ Holds w data inner ∧ Stuck w inner

end Fileid.Spec.Asf
