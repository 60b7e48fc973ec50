import Verif.Spec.Excel
import Verif.Spec.Functions

/-!
# Formula tokens, independently of the model

Taken from MS-XLS, section 2.5.198. A formula is a sequence of tokens; a token's first byte (first two for the
`0x18` and `0x19` families) tells how long it is.
-/

namespace Fileid.Spec

/-- Tokens of one byte. -/
def operators : List (UInt8 × Bytes) := [
  (0x03, b!"PtgAdd"), (0x04, b!"PtgSub"), (0x05, b!"PtgMul"), (0x06, b!"PtgDiv"), (0x07, b!"PtgPower"),
  (0x08, b!"PtgConcat"), (0x09, b!"PtgLt"), (0x0A, b!"PtgLe"), (0x0B, b!"PtgEq"), (0x0C, b!"PtgGe"),
  (0x0D, b!"PtgGt"), (0x0E, b!"PtgNe"), (0x0F, b!"PtgIsect"), (0x10, b!"PtgUnion"), (0x11, b!"PtgRange"),
  (0x12, b!"PtgUplus"), (0x13, b!"PtgUminus"), (0x14, b!"PtgPercent"), (0x15, b!"PtgParen"), (0x16, b!"PtgMissArg")]

/-- Tokens of the `0x19` family shown by name: the second byte and the name; two more bytes follow. -/
def attrTokens : List (UInt8 × Bytes) := [
  (0x01, b!"PtgAttrSemi"), (0x02, b!"PtgAttrIf"), (0x08, b!"PtgAttrGoto"), (0x10, b!"PtgAttrSum"),
  (0x20, b!"PtgAttrBaxcel"), (0x21, b!"PtgAttrBaxcel"), (0x40, b!"PtgAttrSpace"), (0x41, b!"PtgAttrSpaceSemi")]

/-- Column tokens of the `0x18` family: the second byte and the name; four more bytes follow. -/
def elfTokens : List (UInt8 × Bytes) := [
  (0x03, b!"PtgElfCol"), (0x07, b!"PtgElfColV"), (0x0D, b!"PtgElfColS"), (0x0F, b!"PtgElfColSV")]

/-- Operand tokens shown by name: the first byte in its reference form, the number of bytes that follow and the
name. -/
def operandTokens : List (Nat × Nat × Bytes) := [
  (0x20, 7, b!"PtgArray"), (0x26, 6, b!"PtgMemArea"), (0x28, 6, b!"PtgMemNoMem"), (0x29, 2, b!"PtgMemFunc"),
  (0x2A, 4, b!"PtgRefErr"), (0x2B, 8, b!"PtgAreaErr"), (0x2C, 4, b!"PtgRefN"), (0x2D, 8, b!"PtgAreaN"),
  (0x3C, 6, b!"PtgRefErr3d")]

/-- Error values. -/
def errorTexts : List (UInt8 × Bytes) := [
  (0x00, b!"#NULL!"), (0x07, b!"#DIV/0!"), (0x0F, b!"#VALUE!"), (0x17, b!"#REF!"), (0x1D, b!"#NAME?"),
  (0x24, b!"#NUM!"), (0x2A, b!"#N/A"), (0x2B, b!"#GETTING_DATA")]

/-- The first byte of an operand token comes in a reference, a value and an array form. -/
def Form (t : UInt8) (base : Nat) : Prop := t.toNat = base ∨ t.toNat = base + 0x20 ∨ t.toNat = base + 0x40

/-- A token's bytes and the text it is to be shown as. `num` writes a floating point number; `names k i` is the
name the `i`-th record of type `k` gives. -/
inductive TokenText (num : Nat → Bytes) (names : Nat → Nat → Option Bytes) : Bytes → Bytes → Prop
  | op {t n} : (t, n) ∈ operators → TokenText num names [t] n
  | attr {k n d} : (k, n) ∈ attrTokens → d.length = 2 → TokenText num names (0x19 :: k :: d) n
  | elf {k n d} : (k, n) ∈ elfTokens → d.length = 4 → TokenText num names (0x18 :: k :: d) n
  | operand {t base k n d} : (base, k, n) ∈ operandTokens → Form t base → d.length = k →
      TokenText num names (t :: d) n
  | str {c s} : c.toNat = s.length → TokenText num names (0x17 :: c :: 0 :: s) (b!"PtgStr(\"" ++ s ++ b!"\")")
  | err {c n} : (c, n) ∈ errorTexts → TokenText num names [0x1C, c] (b!"PtgErr('" ++ n ++ b!"')")
  | true : TokenText num names [0x1D, 1] b!"PtgBool(true)"
  | false : TokenText num names [0x1D, 0] b!"PtgBool(false)"
  | int {d} : d.length = 2 → TokenText num names (0x1E :: d) (b!"PtgInt(" ++ dec (littleEndian d) ++ b!")")
  | num {d} : d.length = 8 → TokenText num names (0x1F :: d) (b!"PtgNum(" ++ num (littleEndian d) ++ b!")")
  | func {t d} : Form t 0x21 → d.length = 2 →
      TokenText num names (t :: d)
        (b!"PtgFunc(" ++ nameOf functionNames b!"Unknown_fTab_Function" (littleEndian d) ++ b!")")
  | funcVar {t c d} : Form t 0x22 → d.length = 2 → littleEndian d < 0x4000 →
      TokenText num names (t :: c :: d)
        (b!"PtgFuncVar(" ++ nameOf functionNames b!"Unknown_fTab_Function" (littleEndian d) ++ b!")")
  | name {t d n} : Form t 0x23 → d.length = 4 → 1 ≤ littleEndian d → littleEndian d ≤ 65536 →
      names 0x0018 (littleEndian d - 1) = some n → TokenText num names (t :: d) (b!"PtgName(" ++ n ++ b!")")
  | nameX {t x d n} : Form t 0x39 → x.length = 2 → d.length = 4 → 1 ≤ littleEndian d → littleEndian d ≤ 65536 →
      names 0x0023 (littleEndian d - 1) = some n → TokenText num names (t :: x ++ d) (b!"PtgNameX(" ++ n ++ b!")")
  | exp {r c cell} : r.length = 2 → c.length = 2 → littleEndian c < 65535 →
      NamesCell cell (littleEndian r) (littleEndian c) →
      TokenText num names (0x01 :: r ++ c) (b!"PtgExp(" ++ cell ++ b!")")
  | ref {t r c cell} : Form t 0x24 → r.length = 2 → c.length = 2 →
      NamesCell cell (littleEndian r) (littleEndian c % 2 ^ 14) →
      TokenText num names (t :: r ++ c) (b!"PtgRef(" ++ cell ++ b!")")
  | ref3d {t x r c cell} : Form t 0x3A → x.length = 2 → r.length = 2 → c.length = 2 →
      NamesCell cell (littleEndian r) (littleEndian c % 2 ^ 14) →
      TokenText num names (t :: x ++ r ++ c) (b!"PtgRef3d(" ++ cell ++ b!")")
  | area3d {t x r r' c c' cell cell'} : Form t 0x3B → x.length = 2 → r.length = 2 → r'.length = 2 → c.length = 2 →
      c'.length = 2 → NamesCell cell (littleEndian r) (littleEndian c % 2 ^ 14) →
      NamesCell cell' (littleEndian r') (littleEndian c' % 2 ^ 14) →
      TokenText num names (t :: x ++ r ++ r' ++ c ++ c') (b!"PtgArea3d(" ++ cell ++ b!":" ++ cell' ++ b!")")

/-- The eight bytes of a formula's stored value (MS-XLS, section 2.5.133) and the text it is to be shown as: a
number, unless the last two bytes are `FF`; then the first byte tells a truth value (1), an error (2) or a value
that is not stored here. -/
inductive FormulaValueText (num : Nat → Bytes) : Bytes → Bytes → Prop
  | number {v} : v.length = 8 → ¬(v[6]? = some 0xFF ∧ v[7]? = some 0xFF) →
      FormulaValueText num v (num (littleEndian v))
  | true {a b c d e} : b ≠ 0 → FormulaValueText num [1, a, b, c, d, e, 0xFF, 0xFF] b!"true"
  | false {a c d e} : FormulaValueText num [1, a, 0, c, d, e, 0xFF, 0xFF] b!"false"
  | error {a b c d e} : FormulaValueText num [2, a, b, c, d, e, 0xFF, 0xFF] (nameOf errorTexts b!"#UNKNOWN" b)
  | none {k a b c d e} : k ≠ 1 → k ≠ 2 → FormulaValueText num [k, a, b, c, d, e, 0xFF, 0xFF] []

/-- The texts of a formula, separated by semicolons. -/
def joined : List Bytes → Bytes
  | [] => []
  | [t] => t
  | t :: ts => t ++ b!";" ++ joined ts

end Fileid.Spec
