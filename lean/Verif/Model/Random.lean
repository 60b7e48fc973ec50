import Verif.Base

/-!
# Random strings and names of temporary files (fileid/common.hpp)

The random numbers are those of an arbitrary source: `draw i` is what `distribution(generator)` gives the `i`-th time. The only
thing used of it is what the standard says of `uniform_int_distribution<>(0, n)`: that the value is at most `n`. How
`std::mt19937` computes them is not modelled.
-/

namespace Fileid.Common

/-- common.hpp:40-43, the loop: characters still to make, number of the draw. Index `draw i` is cut to the bounds of the
distribution, `0` and `charset.size() - 1`. -/
def randomLoop (draw : Nat → Nat) (charset : Bytes) : Nat → Nat → Res Bytes
  | 0, _ => .ok []
  | n + 1, i =>
    match charset[draw i % charset.length]? with
    | none => .ub .oobRead
    | some c => do
      let rest ← randomLoop draw charset n (i + 1)
      .ok (c :: rest)

/-- common.hpp:33-45 `random_string`. The bounds of the distribution are `int`s: for an empty set (`0, -1`), and for one of more
than 2^31 characters, whose size wraps, they are not in order, which the standard does not allow; what an index then is, and what
is read with it, is undefined. -/
def random_string (draw : Nat → Nat) (charset : Bytes) (length : Nat) : Res Bytes :=
  if charset = [] ∨ 2 ^ 31 < charset.length then .ub .oobRead
  else randomLoop draw charset length 0

/-- common.hpp:49, the characters of names. -/
def nameChars : Bytes := b!"0123456789ABCDEFGHIJKLMNOPQRSTUVWXYZabcdefghijklmnopqrstuvwxyz"

/-- common.hpp:47-51 `temp_filename`; `dir` is `fs::temp_directory_path()`, `sep` the separator of the platform (`/` of two paths puts
it between them unless there is one at the end of the first). -/
def temp_filename (draw : Nat → Nat) (dir : Bytes) (sep : UInt8) : Res Bytes := do
  let name ← random_string draw nameChars 24
  .ok (if dir.getLast? = some sep ∨ dir = [] then dir ++ name else dir ++ [sep] ++ name)

end Fileid.Common
