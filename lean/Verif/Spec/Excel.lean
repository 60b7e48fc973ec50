import Verif.Spec.Formats
import Verif.Spec.Text

/-!
# Workbook facts, independently of the model

Taken from MS-XLS: cell names, the record stream, formula tokens and numbers.
-/

namespace Fileid.Spec

/-! ## Columns and cells -/

/-- A column name is a word of one or more capital letters. -/
def IsColumnName (s : Bytes) : Prop := s ≠ [] ∧ ∀ c ∈ s, 65 ≤ c ∧ c ≤ 90

/-- The number of a column name: `A` to `Z` are the digits 1 to 26 of a numeral in base 26. -/
def columnNumber (s : Bytes) : Nat := s.foldl (fun n c => n * 26 + (c.toNat - 64)) 0

/-- `text` names the cell in the given zero-based row and column: the column's letters, then the one-based row
in decimal. -/
def NamesCell (text : Bytes) (row col : Nat) : Prop :=
  ∃ letters, text = letters ++ dec (row + 1) ∧ IsColumnName letters ∧ columnNumber letters = col + 1

/-! ## What a record's two notations show -/

/-- The JSON and the XML notation both give the member `key` the quoted text `value`. -/
def ShowsText (json xml key value : Bytes) : Prop :=
  Occurs (b!"\"" ++ key ++ b!"\":\"" ++ value ++ b!"\"") json ∧
  Occurs (b!"<" ++ key ++ b!">" ++ value ++ b!"</" ++ key ++ b!">") xml

/-- The JSON and the XML notation both give the member `key` the number written `value`. -/
def ShowsNum (json xml key value : Bytes) : Prop :=
  (∃ stop, (stop = b!"," ∨ stop = b!"}") ∧ Occurs (b!"\"" ++ key ++ b!"\":" ++ value ++ stop) json) ∧
  Occurs (b!"<" ++ key ++ b!">" ++ value ++ b!"</" ++ key ++ b!">") xml

/-- The JSON notation gives the member `key` a string literal that denotes the characters of `value`. -/
def JsonShows (json key value : Bytes) : Prop :=
  ∃ j, jsonBody j = some (value.map UInt8.toNat) ∧ Occurs (b!"\"" ++ key ++ b!"\":\"" ++ j ++ b!"\"") json

/-- The XML notation has an element `key` whose text denotes the characters of `value`. -/
def XmlShows (xml key value : Bytes) : Prop :=
  ∃ x, xmlText x = some (value.map UInt8.toNat) ∧ Occurs (b!"<" ++ key ++ b!">" ++ x ++ b!"</" ++ key ++ b!">") xml

/-! ## Numbers -/

/-- The integer an RK number with the integer bit denotes, in hundredths if bit 0 is set: bits 2 to 31 in two's
complement. -/
def rkInteger (n : Nat) : Int := twosComplement 30 (n / 4)

/-- The value of a positive normal single-precision pattern, in units of 2^-150. -/
def singleUnits (p : Nat) : Nat := (2 ^ 23 + p % 2 ^ 23) * 2 ^ (p / 2 ^ 23)

/-- The value of a positive normal double-precision pattern, in units of 2^-1075. -/
def doubleUnits (p : Nat) : Nat := (2 ^ 52 + p % 2 ^ 52) * 2 ^ (p / 2 ^ 52)

end Fileid.Spec
