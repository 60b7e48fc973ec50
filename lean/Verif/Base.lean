/-!
# Base vocabulary of the model

Byte strings, the outcome type `Res` (normal result, C++ exception, undefined behaviour, loop budget
exhausted), fixed-width arithmetic and bounds-checked memory access.
-/

namespace Fileid

/-- A byte string: `std::string`, `std::vector<unsigned char>` or a raw buffer together with its
allocated length. -/
abbrev Bytes := List UInt8

/-- `b!"text"` is the byte string of an (ASCII/UTF-8) literal, expanded at elaboration time into a
plain list of numerals so that the kernel can compute with it. -/
macro:max "b!" s:str : term => do
  let elems := (s.getString.toUTF8.toList.map fun b => Lean.Syntax.mkNumLit (toString b.toNat)).toArray
  `(([$[$elems],*] : List UInt8))

/-- C++ exceptions the code can raise (by class). -/
inductive Exc
  | rangeError      -- std::range_error (common.hpp readers, wstring_convert)
  | outOfRange      -- std::out_of_range (substr, at)
  | badAlloc        -- std::bad_alloc
  | lengthError     -- std::length_error
  | runtimeError    -- std::runtime_error
  deriving DecidableEq, Repr

/-- Kinds of undefined behaviour the model distinguishes. -/
inductive UB
  | oobRead         -- read outside an object
  | oobWrite        -- write outside an object
  | nullDeref       -- dereference of a null pointer
  | uninit          -- use of an indeterminate value
  | badShift        -- shift by a negative amount or by at least the width
  | signedOverflow  -- signed integer overflow
  | dangling        -- use of a pointer to an object whose lifetime ended
  | badDelete       -- `delete` of an array or `delete[]` of a single object
  deriving DecidableEq, Repr

/-- Outcome of a modelled C++ function. -/
inductive Res (α : Type) where
  | ok (a : α)
  | throw (e : Exc)
  | ub (u : UB)
  | fuel            -- the loop model's step budget was used up
  deriving DecidableEq, Repr

namespace Res

/-- Sequencing: anything but a normal result stops the computation. -/
def bind {α β : Type} (x : Res α) (f : α → Res β) : Res β :=
  match x with
  | ok a => f a
  | throw e => throw e
  | ub u => ub u
  | fuel => fuel

instance : Monad Res where
  pure := ok
  bind := bind

@[simp] theorem bind_ok {α β : Type} (a : α) (f : α → Res β) : (ok a >>= f) = f a := rfl
@[simp] theorem bind_throw {α β : Type} (e : Exc) (f : α → Res β) :
    ((throw e : Res α) >>= f) = throw e := rfl
@[simp] theorem bind_ub {α β : Type} (u : UB) (f : α → Res β) : ((ub u : Res α) >>= f) = ub u := rfl
@[simp] theorem bind_fuel {α β : Type} (f : α → Res β) : ((fuel : Res α) >>= f) = fuel := rfl
@[simp] theorem pure_eq {α : Type} (a : α) : (pure a : Res α) = ok a := rfl

/-- The computation ran into undefined behaviour. -/
def isUB {α : Type} : Res α → Bool
  | ub _ => true
  | _ => false

/-- The computation produced a normal result. -/
def isOk {α : Type} : Res α → Bool
  | ok _ => true
  | _ => false

/-- `try { x } catch (const std::exception&) { h }`: undefined behaviour is not caught. -/
def catchAll {α : Type} (x : Res α) (h : Exc → Res α) : Res α :=
  match x with
  | throw e => h e
  | r => r

end Res

/-- `unsigned int` arithmetic: reduction modulo 2^32. -/
def u32 (n : Nat) : Nat := n % 4294967296
/-- `unsigned short` conversion: reduction modulo 2^16. -/
def u16 (n : Nat) : Nat := n % 65536
/-- `unsigned long long` / `size_t` arithmetic: reduction modulo 2^64. -/
def u64 (n : Nat) : Nat := n % 18446744073709551616

/-- Subtraction of two `unsigned int` values. -/
def sub32 (a b : Nat) : Nat := (a + 4294967296 - b % 4294967296) % 4294967296
/-- Subtraction of two `size_t` / `unsigned long long` values. -/
def sub64 (a b : Nat) : Nat := (a + 18446744073709551616 - b % 18446744073709551616) % 18446744073709551616

/-- Two's complement reading of a `w`-bit pattern. -/
def toSigned (w : Nat) (n : Nat) : Int :=
  if n % 2 ^ w < 2 ^ (w - 1) then (n % 2 ^ w : Nat) else (n % 2 ^ w : Nat) - (2 ^ w : Nat)

/-- Bounds-checked read of byte `i` of the object `b`. -/
def rd (b : Bytes) (i : Nat) : Res UInt8 :=
  match b[i]? with
  | some x => .ok x
  | none => .ub .oobRead

/-- Bounds-checked read (`memcpy`, pointer range) of `n` bytes at `i` of the object `b`. -/
def rdRange (b : Bytes) (i n : Nat) : Res Bytes :=
  if i + n ≤ b.length then .ok ((b.drop i).take n) else .ub .oobRead

/-- Value of a little-endian byte sequence. -/
def leVal : Bytes → Nat
  | [] => 0
  | b :: bs => b.toNat + 256 * leVal bs

/-- Value of a big-endian byte sequence. -/
def beVal (bs : Bytes) : Nat := leVal bs.reverse

/-- Little-endian encoding of `n` in `k` bytes. -/
def leBytes : Nat → Nat → Bytes
  | 0, _ => []
  | k + 1, n => UInt8.ofNat (n % 256) :: leBytes k (n / 256)

/-- Parameters of the platform the program is compiled for. -/
structure Abi where
  /-- `sizeof(unsigned long)` -/
  ulongBytes : Nat
  /-- `sizeof(wchar_t)` -/
  wcharBytes : Nat
  deriving DecidableEq, Repr

/-- The makefile's target: g++ on x86-64 Linux. -/
def Abi.linux : Abi := ⟨8, 4⟩
/-- The Visual Studio target. -/
def Abi.windows : Abi := ⟨4, 2⟩

/-! ### Number formatting (iostream) -/

/-- Digits of `n` in base `b`, most significant first; the first argument is a step budget. -/
def digitsAux (b : Nat) : Nat → Nat → List Nat → List Nat
  | 0, _, acc => acc
  | f + 1, n, acc => if n < b then n :: acc else digitsAux b f (n / b) (n % b :: acc)

/-- Digits of `n` in base `b`, most significant first (`0` has the single digit 0). -/
def digitsOf (b n : Nat) : List Nat := digitsAux b (n + 1) n []

/-- ASCII code of a lower-case digit. -/
def digitLower (d : Nat) : UInt8 := UInt8.ofNat (if d < 10 then 48 + d else 87 + d)
/-- ASCII code of an upper-case digit. -/
def digitUpper (d : Nat) : UInt8 := UInt8.ofNat (if d < 10 then 48 + d else 55 + d)

/-- `os << n` for an unsigned integer. -/
def dec (n : Nat) : Bytes := (digitsOf 10 n).map digitLower
/-- `os << std::hex << n`. -/
def hexLower (n : Nat) : Bytes := (digitsOf 16 n).map digitLower
/-- `os << std::hex << std::uppercase << n`. -/
def hexUpper (n : Nat) : Bytes := (digitsOf 16 n).map digitUpper
/-- `os << n` for a signed integer. -/
def decInt (i : Int) : Bytes := if i < 0 then 45 :: dec i.natAbs else dec i.natAbs

/-- `std::setfill('0') << std::setw(w)`: pad on the left, never truncate. -/
def setw0 (w : Nat) (s : Bytes) : Bytes := List.replicate (w - s.length) 48 ++ s

end Fileid
