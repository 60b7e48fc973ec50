import Verif.Spec.Asf

/-!
# Sequences of ASF objects, whatever they hold
-/

namespace Fileid.Spec.Asf

/-- A sequence of ASF objects, each an identifier, its size and its data, without anything between or behind them. Nothing
is said about the data, except that the part of a header extension that is meant for further objects is again such
a sequence. Header objects do not occur: they are the outermost objects of a file. -/
inductive Framed : Bytes → Prop
  | nil : Framed []
  | other {id data rest : Bytes} : id.length = 16 → id ≠ headerExtId → id ≠ headerId → Framed rest →
      Framed (frame id data ++ rest)
  | ext {clock inner behind rest : Bytes} {n : Nat} : clock.length = 16 → Framed inner → Framed rest →
      Framed (frame headerExtId (clock ++ leBytes 2 n ++ leBytes 4 inner.length ++ inner ++ behind) ++ rest)

/-- The content of a header extension that is no sequence of objects: after some objects something is left that is too
short for an object, or an object is cut off, or it holds another header extension with such content. -/
inductive Broken : Bytes → Prop
  | short {tail : Bytes} : 0 < tail.length → tail.length < 24 → Broken tail
  | cut {id data : Bytes} {size : Nat} : id.length = 16 → 24 + data.length < size → size < 2 ^ 64 → Broken (id ++ leBytes 8 size ++ data)
  | after {id data rest : Bytes} : id.length = 16 → id ≠ headerId → Broken rest → Broken (frame id data ++ rest)
  | inside {clock inner behind rest : Bytes} {n : Nat} : clock.length = 16 → Broken inner →
      Broken (frame headerExtId (clock ++ leBytes 2 n ++ leBytes 4 inner.length ++ inner ++ behind) ++ rest)

/-- One of the first objects of a header, as many as it says it has, is a header extension with such content. -/
inductive BrokenHeader : Nat → Bytes → Prop
  | here {clock inner behind rest : Bytes} {n k : Nat} : clock.length = 16 → Broken inner →
      BrokenHeader (k + 1) (frame headerExtId (clock ++ leBytes 2 n ++ leBytes 4 inner.length ++ inner ++ behind) ++ rest)
  | later {id data rest : Bytes} {k : Nat} : id.length = 16 → id ≠ headerId → BrokenHeader k rest →
      BrokenHeader (k + 1) (frame id data ++ rest)

end Fileid.Spec.Asf
