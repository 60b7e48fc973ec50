import Verif.Spec.Bytes
import Verif.Spec.Formats
import Verif.Spec.Text
import Verif.Spec.Calendar
import Verif.Spec.Cfb

/-!
# Property sets of compound files ([MS-OLEPS])

What a property stream stores and what a reader should show for it, independent of the program. Offsets are
byte offsets; numbers are little-endian.
-/

namespace Fileid.Spec.Oleps

/-- A GUID from its usual parts. -/
def guid (d1 d2 d3 : Nat) (d4 : Bytes) : Bytes := leBytes 4 d1 ++ leBytes 2 d2 ++ leBytes 2 d3 ++ d4

/-- {F29F85E0-4FF9-1068-AB91-08002B27B3D9} -/
def summaryInformation : Bytes := guid 0xF29F85E0 0x4FF9 0x1068 [0xAB, 0x91, 0x08, 0x00, 0x2B, 0x27, 0xB3, 0xD9]
/-- {D5CDD502-2E9C-101B-9397-08002B2CF9AE} -/
def documentSummaryInformation : Bytes :=
  guid 0xD5CDD502 0x2E9C 0x101B [0x93, 0x97, 0x08, 0x00, 0x2B, 0x2C, 0xF9, 0xAE]

/-- A value. Text is a list of characters (byte values of the code page, or UTF-16 units); real numbers are
given by their IEEE 754 bit patterns; a time counts units of 100 ns since 1601. -/
inductive Val
  | int (i : Int)
  | bool (b : Bool)
  | time (ticks : Nat)
  | text (chars : List Nat)
  | single (bits : Nat)
  | double (bits : Nat)

/-- The property at `off` has type `ty` and value `v`: a type word, two bytes of padding and the value in the
type's own encoding. -/
inductive Stored (c : Bytes) (off : Nat) : Nat → Val → Prop
  | i2 {n} : Num c off 2 2 → Num c (off + 4) 2 n → Stored c off 2 (.int (twosComplement 16 n))
  | i4 {n} : Num c off 2 3 → Num c (off + 4) 4 n → Stored c off 3 (.int (twosComplement 32 n))
  | r4 {n} : Num c off 2 4 → Num c (off + 4) 4 n → Stored c off 4 (.single n)
  | r8 {n} : Num c off 2 5 → Num c (off + 4) 8 n → Stored c off 5 (.double n)
  | true : Num c off 2 0x0B → Num c (off + 4) 2 0xFFFF → Stored c off 0x0B (.bool true)
  | false : Num c off 2 0x0B → Num c (off + 4) 2 0 → Stored c off 0x0B (.bool false)
  | ui4 {n} : Num c off 2 0x13 → Num c (off + 4) 4 n → Stored c off 0x13 (.int n)
  | i8 {n} : Num c off 2 0x14 → Num c (off + 4) 8 n → Stored c off 0x14 (.int (twosComplement 64 n))
  | filetime {n} : Num c off 2 0x40 → Num c (off + 4) 8 n → Stored c off 0x40 (.time n)
  /-- a string of the code page: the size of the text with its terminating zero bytes, then the text -/
  | codepage {ty k s} : ty = 0x08 ∨ ty = 0x1E → Num c off 2 ty → Num c (off + 4) 4 (s.length + k) →
      At c (off + 8) (s ++ List.replicate k 0) → 0 ∉ s → Stored c off ty (.text (s.map UInt8.toNat))
  /-- a string of UTF-16 units: their number with the terminating zero, then the units -/
  | wide {us} : Num c off 2 0x1F → Num c (off + 4) 4 (us.length + 1) → UnitsAt c (off + 8) (us ++ [0]) →
      0 ∉ us → Stored c off 0x1F (.text us)

/-- A property: identifier, type and value. -/
structure Prop_ where
  id : Nat
  ty : Nat
  val : Val

/-- A property set at `base`: a size, the number of properties, and for each its identifier and its offset
relative to `base`. -/
def SetAt (c : Bytes) (base : Nat) (props : List Prop_) : Prop :=
  Num c (base + 4) 4 props.length ∧
  ∀ i p, props[i]? = some p → ∃ o, Num c (base + 8 + 8 * i) 4 p.id ∧ Num c (base + 12 + 8 * i) 4 o ∧
    Stored c (base + o) p.ty p.val

/-- A property stream: a header with the number of sets, and for each its format identifier and offset. -/
def PropertyStream (c : Bytes) (sets : List (Bytes × List Prop_)) : Prop :=
  Num c 24 4 sets.length ∧
  ∀ i s, sets[i]? = some s → ∃ base, s.1.length = 16 ∧ At c (28 + 20 * i) s.1 ∧
    Num c (44 + 20 * i) 4 base ∧ SetAt c base s.2

/-! ## What should be shown -/

/-- Names of the property types. -/
def baseTypes : List (Nat × Bytes) := [
  (0x00, b!"VT_EMPTY"), (0x01, b!"VT_NULL"), (0x02, b!"VT_I2"), (0x03, b!"VT_I4"), (0x04, b!"VT_R4"),
  (0x05, b!"VT_R8"), (0x06, b!"VT_CY"), (0x07, b!"VT_DATE"), (0x08, b!"VT_BSTR"), (0x0A, b!"VT_ERROR"),
  (0x0B, b!"VT_BOOL"), (0x0C, b!"VT_VARIANT"), (0x0E, b!"VT_DECIMAL"), (0x10, b!"VT_I1"), (0x11, b!"VT_UI1"),
  (0x12, b!"VT_UI2"), (0x13, b!"VT_UI4"), (0x14, b!"VT_I8"), (0x15, b!"VT_UI8"), (0x16, b!"VT_INT"),
  (0x17, b!"VT_UINT"), (0x1E, b!"VT_LPSTR"), (0x1F, b!"VT_LPWSTR"), (0x40, b!"VT_FILETIME"),
  (0x41, b!"VT_BLOB"), (0x42, b!"VT_STREAM"), (0x43, b!"VT_STORAGE"), (0x44, b!"VT_STREAMED_OBJECT"),
  (0x45, b!"VT_STORED_OBJECT"), (0x46, b!"VT_BLOB_OBJECT"), (0x47, b!"VT_CF"), (0x48, b!"VT_CLSID"),
  (0x49, b!"VT_VERSIONED_STREAM")]

/-- The types a vector and an array may have as elements. -/
def vectorTypes : List Nat := [2, 3, 4, 5, 6, 7, 8, 0x0A, 0x0B, 0x0C, 0x10, 0x11, 0x12, 0x13, 0x14, 0x15, 0x1E, 0x1F,
  0x40, 0x47, 0x48]
def arrayTypes : List Nat := [2, 3, 4, 5, 6, 7, 8, 0x0A, 0x0B, 0x0C, 0x0E, 0x10, 0x11, 0x12, 0x13, 0x16, 0x17]

/-- The name of a type; vectors and arrays are named after their element type. -/
def typeName (ty : Nat) : Bytes :=
  let other := b!"Unknown Property Type (" ++ dec ty ++ b!")"
  if ty < 0x1000 then (if ty = 0x0C then other else nameOf baseTypes other ty)
  else if ty - 0x1000 ∈ vectorTypes then b!"VT_VECTOR|" ++ nameOf baseTypes other (ty - 0x1000)
  else if ty ≥ 0x2000 ∧ ty - 0x2000 ∈ arrayTypes then b!"VT_ARRAY|" ++ nameOf baseTypes other (ty - 0x2000)
  else other

/-- PIDSI_*: the properties of summary information, from identifier 2 on. -/
def summaryProperties : List Bytes := [b!"Title", b!"Subject", b!"Author", b!"Keywords", b!"Comments", b!"Template",
  b!"Last Author", b!"Revision", b!"Edit Time", b!"Last Printed", b!"Creation Time", b!"Last Save Time",
  b!"Page Count", b!"Word Count", b!"Character Count", b!"Thumbnail", b!"Application", b!"DocSecurity"]

/-- PIDDSI_*: the properties of document summary information, from identifier 2 on. -/
def documentProperties : List Bytes := [b!"Category", b!"PresentationTarget", b!"Bytes", b!"Lines", b!"Paragraphs",
  b!"Slides", b!"Notes", b!"HiddenSlides", b!"MMClips", b!"ScaleCrop", b!"HeadingPairs", b!"TitlesofParts",
  b!"Manager", b!"Company", b!"LinksUpToDate"]

/-- The name of a property in a set with the given format identifier. -/
def propertyName (fmtid : Bytes) (id : Nat) : Bytes :=
  let other := b!"Unknown Property Identifier (" ++ dec id ++ b!")"
  let among (names : List Bytes) : Bytes :=
    if id = 0 then b!"Dictionary" else if id = 1 then b!"CodePage" else (names[id - 2]?).getD other
  if fmtid = summaryInformation then among summaryProperties
  else if fmtid = documentSummaryInformation then
    if id = 0x80000000 then b!"Locale" else if id = 0x80000003 then b!"Behavior" else among documentProperties
  else other

/-- `json` and `xml` show a value. Times are shown in JSON as a duration for the property "Edit Time"
(identifier 10) and as a date and time otherwise, in XML as their number. How a real number is written is
left to `real`. -/
def Shows (real : Val → Bytes) (id : Nat) (v : Val) (json xml : Bytes) : Prop :=
  match v with
  | .int i => json = decInt i ∧ xml = decInt i
  | .bool b => json = (if b then b!"true" else b!"false") ∧ xml = (if b then b!"true" else b!"false")
  | .time t =>
    (∃ s, json = b!"\"" ++ s ++ b!"\"" ∧
      if id = 10 then readDuration s = some (t / 10)
      else ∃ d : DateTime, d.Valid ∧ d.secondsSince1601 = t / 10000000 ∧
        readTimestamp s = some (d.year, d.mon, d.day, d.hour, d.min, d.sec)) ∧
    xml = dec t
  | .text cs => (∃ s, json = b!"\"" ++ s ++ b!"\"" ∧ jsonBody s = some cs) ∧ xmlText xml = some cs
  | .single _ => json = real v ∧ xml = real v
  | .double _ => json = real v ∧ xml = real v

/-- `json` and `xml` show a property of a set with the given format identifier: name, type and value. -/
def ShowsProperty (real : Val → Bytes) (fmtid : Bytes) (p : Prop_) (json xml : Bytes) : Prop :=
  ∃ jv xv, Shows real p.id p.val jv xv ∧
    json = b!"{\"Property\":\"" ++ propertyName fmtid p.id ++ b!"\",\"Type\":\"" ++ typeName p.ty ++
      b!"\",\"Value\":" ++ jv ++ b!"}" ∧
    xml = b!"<PropertyItem><Property>" ++ propertyName fmtid p.id ++ b!"</Property><Type>" ++ typeName p.ty ++
      b!"</Type><Value>" ++ xv ++ b!"</Value></PropertyItem>"

/-- All properties of all sets with the format identifier of their set, in order. -/
def allProperties (sets : List (Bytes × List Prop_)) : List (Bytes × Prop_) :=
  sets.flatMap fun s => s.2.map fun p => (s.1, p)

end Fileid.Spec.Oleps
