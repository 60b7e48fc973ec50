import Verif.Base

/-!
# Independent readers for the text formats the program writes

These definitions do not mention the model. They say how a consumer reads the program's output.
-/

namespace Fileid.Spec

/-- Value of a hexadecimal (or decimal) digit character. -/
def digitVal (c : UInt8) : Option Nat :=
  if 48 ≤ c.toNat ∧ c.toNat ≤ 57 then some (c.toNat - 48)
  else if 97 ≤ c.toNat ∧ c.toNat ≤ 102 then some (c.toNat - 87)
  else if 65 ≤ c.toNat ∧ c.toNat ≤ 70 then some (c.toNat - 55)
  else none

/-- Reads digits of base `b`, most significant first, on top of the value `a` read so far. -/
def readDigits (b : Nat) : Nat → Bytes → Option Nat
  | a, [] => some a
  | a, c :: cs =>
    match digitVal c with
    | some d => if d < b then readDigits b (a * b + d) cs else none
    | none => none

/-- Reads a non-empty numeral of base `b` that makes up the whole text. -/
def readNumeral (b : Nat) (s : Bytes) : Option Nat := if s = [] then none else readDigits b 0 s

/-- Reads a hex dump: two hexadecimal digits per byte. -/
def unhex : Bytes → Option Bytes
  | [] => some []
  | [_] => none
  | x :: y :: rest =>
    match digitVal x, digitVal y, unhex rest with
    | some a, some b, some r => some (UInt8.ofNat (16 * a + b) :: r)
    | _, _, _ => none

/-- Is the character one of `0`-`9`, `a`-`f`? -/
def isLowerHex (c : UInt8) : Bool := (48 ≤ c && c ≤ 57) || (97 ≤ c && c ≤ 102)

/-- Reads the body of a JSON string literal (RFC 8259, restricted to ASCII input) into the sequence of
its UTF-16 code units: an unescaped character stands for itself and must not be a control character,
quote, backslash or non-ASCII; `\uXXXX` takes exactly four hex digits. `none`: not a legal body. -/
def jsonBody : Bytes → Option (List Nat)
  | [] => some []
  | 92 :: 117 :: a :: b :: c :: d :: rest =>
    match readNumeral 16 [a, b, c, d], jsonBody rest with
    | some n, some r => some (n :: r)
    | _, _ => none
  | 92 :: e :: rest =>
    let v : Option Nat :=
      if e = 34 then some 34 else if e = 92 then some 92 else if e = 47 then some 47
      else if e = 98 then some 8 else if e = 102 then some 12 else if e = 110 then some 10
      else if e = 114 then some 13 else if e = 116 then some 9 else none
    match v, jsonBody rest with
    | some n, some r => some (n :: r)
    | _, _ => none
  | c :: rest =>
    if c < 32 ∨ c = 34 ∨ c = 92 ∨ c > 127 then none
    else match jsonBody rest with
      | some r => some (c.toNat :: r)
      | none => none

/-- Resolves XML character data that may contain decimal character references `&#N;` and no other
markup. The first argument is `none` outside a reference and the digits collected so far inside one.
`<`, `>`, quotes and any other use of `&` are rejected. -/
def xmlGo : Option Bytes → Bytes → Option (List Nat)
  | none, [] => some []
  | some _, [] => none
  | none, 38 :: 35 :: rest => xmlGo (some []) rest
  | none, c :: rest =>
    if c = 38 ∨ c = 60 ∨ c = 62 ∨ c = 34 ∨ c = 39 then none
    else match xmlGo none rest with
      | some r => some (c.toNat :: r)
      | none => none
  | some ds, c :: rest =>
    if c = 59 then
      match readNumeral 10 ds, xmlGo none rest with
      | some n, some r => some (n :: r)
      | _, _ => none
    else xmlGo (some (ds ++ [c])) rest

/-- The characters denoted by XML character data with decimal references; `none` if malformed. -/
def xmlText (s : Bytes) : Option (List Nat) := xmlGo none s

/-- Splits at the first occurrence of `c`: the text before it and the text after it. -/
def splitFirst (c : UInt8) : Bytes → Option (Bytes × Bytes)
  | [] => none
  | x :: xs => if x = c then some ([], xs) else
    match splitFirst c xs with
    | some (a, b) => some (x :: a, b)
    | none => none

/-- Reads a numeral of exactly `k` decimal digits. -/
def readFixed (k : Nat) (s : Bytes) : Option Nat := if s.length = k then readNumeral 10 s else none

/-- Reads a duration `HH:MM:SS` or `HH:MM:SS.ffffff` (hours: at least two digits, minutes and seconds:
two digits below 60, fraction: six digits, not all zero) into microseconds. -/
def readDuration (s : Bytes) : Option Nat := do
  let (h, r) ← splitFirst 58 s
  let (m, r) ← splitFirst 58 r
  let (sec, frac) ← match splitFirst 46 r with
    | none => some (r, 0)
    | some (a, f) => do
      let v ← readFixed 6 f
      if v = 0 then none else some (a, v)
  if h.length < 2 then none
  let hv ← readNumeral 10 h
  let mv ← readFixed 2 m
  let sv ← readFixed 2 sec
  if 60 ≤ mv ∨ 60 ≤ sv then none
  some (((hv * 60 + mv) * 60 + sv) * 1000000 + frac)

/-- Reads a timestamp `Y-MM-DD HH:MM:SS` (year: any number of digits, the rest two digits each) into the
six numbers. -/
def readTimestamp (s : Bytes) : Option (Nat × Nat × Nat × Nat × Nat × Nat) := do
  let (y, r) ← splitFirst 45 s
  let (mo, r) ← splitFirst 45 r
  let (d, r) ← splitFirst 32 r
  let (h, r) ← splitFirst 58 r
  let (mi, se) ← splitFirst 58 r
  some (← readNumeral 10 y, ← readFixed 2 mo, ← readFixed 2 d, ← readFixed 2 h, ← readFixed 2 mi,
    ← readFixed 2 se)

/-- ASCII lower-casing of a code unit. -/
def asciiLower (c : Nat) : Nat := if 65 ≤ c ∧ c ≤ 90 then c + 32 else c

end Fileid.Spec
