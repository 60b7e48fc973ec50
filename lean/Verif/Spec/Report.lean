import Verif.Spec.Reader
import Verif.Model.Propset

/-!
# What the JSON and XML reports about a result contain

The values a reader of the report should get, independent of how the program writes them.
-/

namespace Fileid.Spec.Report

open Common

/-- The text stands for itself in a JSON string and between XML tags: printable ASCII without quotation mark,
backslash, ampersand, less-than and greater-than sign. -/
def Clear (s : Bytes) : Prop :=
  ∀ c ∈ s, 32 ≤ c.toNat ∧ c.toNat < 127 ∧ c ≠ 34 ∧ c ≠ 92 ∧ c ≠ 38 ∧ c ≠ 60 ∧ c ≠ 62

instance (s : Bytes) : Decidable (Clear s) := by unfold Clear; infer_instance

/-- The codes of the characters of a text. -/
def codes (s : Bytes) : List Nat := s.map UInt8.toNat

/-- A member that is left out when the text is empty. -/
def given (key text : Bytes) : List (Bytes × JVal) := if text = [] then [] else [(key, .text text)]

/-- A member that is left out when the list is empty. -/
def listed (key : Bytes) : List JVal → List (Bytes × JVal)
  | [] => []
  | v :: vs => [(key, .arr (v :: vs))]

/-- The members that say what was found. -/
def identity (e : ExtInfo) : List (Bytes × JVal) :=
  (b!"extension", .text e.Extension) :: (given b!"name" e.Name ++ given b!"subtype" e.SubType ++
    (if e.Version = 0 then [] else [(b!"version", .text (dec e.Version))]) ++ given b!"versionname" e.VersionName)

/-- The same for XML. -/
def givenX (key text : Bytes) : List XVal := if text = [] then [] else [.leaf key text]

def identityX (e : ExtInfo) : List XVal :=
  .leaf b!"extension" e.Extension :: (givenX b!"name" e.Name ++ givenX b!"subtype" e.SubType ++
    (if e.Version = 0 then [] else [.leaf b!"version" (dec e.Version)]) ++ givenX b!"versionname" e.VersionName)

/-- A name given by its UTF-16 units is shown as a string; a name of ASCII characters character by character. -/
def NameShown (units : List Nat) (v : JVal) : Prop :=
  ∃ cs, v = .str cs ∧ ((∀ u ∈ units, 0 < u ∧ u < 128) → cs = units)

/-- The value of a property: text up to a zero byte, a real number as the library writes it, an integer as a number,
a time as a text (which one is the subject of C58). -/
def ValueShown (real : Propset.Real → Bytes) (p : Propset.Property) (v : JVal) : Prop :=
  match p.value with
  | .none => v = .text b!"unknown"
  | .str s => v = .str ((s.takeWhile (· ≠ 0)).map UInt8.toNat)
  | .int n => if p.type = 0x40 then ∃ t, v = .text t else v = .nat n
  | .float r => v = .bare (real r)
  | .bool b => v = .bare (if b then b!"true" else b!"false")

/-- A property: its name, its type and its value. -/
def PropertyShown (real : Propset.Real → Bytes) (p : Propset.Property) (v : JVal) : Prop :=
  ∃ val, ValueShown real p val ∧
    v = .obj [(b!"Property", .text (Propset.PropertyIdentifierToString p.FMTID p.PID)),
      (b!"Type", .text (Propset.PropertyTypeToString p.type)), (b!"Value", val)]

/-- The properties of one stream under its path. -/
def GroupShown (real : Propset.Real → Bytes) (g : List Nat × List Propset.Property) (v : JVal) : Prop :=
  ∃ name ps, NameShown g.1 name ∧ Pointwise (PropertyShown real) g.2 ps ∧
    v = .obj [(b!"Group", name), (b!"properties", .arr ps)]

/-- What a result shows that carries paths and properties. -/
def Carried (real : Propset.Real → Bytes) (paths : List (List Nat)) (properties : List (List Nat × List Propset.Property))
    (ms : List (Bytes × JVal)) : Prop :=
  ∃ ps gs, ms = listed b!"Paths" ps ++ listed b!"properties" gs ∧
    Pointwise (fun p v => NameShown (p.takeWhile (· ≠ 0)) v) paths ps ∧ Pointwise (GroupShown real) properties gs

/-! ## XML -/

/-- A character that may stand in an XML document. -/
def XmlUnit (u : Nat) : Prop := u = 9 ∨ u = 10 ∨ u = 13 ∨ 32 ≤ u

instance (u : Nat) : Decidable (XmlUnit u) := by unfold XmlUnit; infer_instance

/-- A name given by its UTF-16 units; one of ASCII characters is shown character by character (except for `<` and
`>`, which are swapped, C12). -/
def NameShownX (units : List Nat) (v : XVal) : Prop :=
  ∃ cs, v = .chars cs ∧ ((∀ u ∈ units, u < 128 ∧ u ≠ 60 ∧ u ≠ 62) → cs = units)

def ValueShownX (real : Propset.Real → Bytes) (p : Propset.Property) (v : XVal) : Prop :=
  match p.value with
  | .none => v = .chars (codes b!"unknown")
  | .str s => ∃ cs, v = .chars cs ∧ ((∀ c ∈ s, c ≠ 60 ∧ c ≠ 62) → cs = codes s)
  | .int n => v = .chars (codes (dec n))
  | .float r => v = .chars (codes (real r))
  | .bool b => v = .chars (codes (if b then b!"true" else b!"false"))

def PropertyShownX (real : Propset.Real → Bytes) (p : Propset.Property) (v : XVal) : Prop :=
  ∃ val, ValueShownX real p val ∧
    v = .elem b!"PropertyItem" [.leaf b!"Property" (Propset.PropertyIdentifierToString p.FMTID p.PID),
      .leaf b!"Type" (Propset.PropertyTypeToString p.type), .elem b!"Value" [val]]

def GroupShownX (real : Propset.Real → Bytes) (g : List Nat × List Propset.Property) (v : XVal) : Prop :=
  ∃ name ps, NameShownX g.1 name ∧ Pointwise (PropertyShownX real) g.2 ps ∧
    v = .elem b!"Group" [.elem b!"Name" [name], .elem b!"properties" ps]

/-- The elements with a comma between any two. -/
def commas : List XVal → List XVal
  | [] => []
  | [v] => [v]
  | v :: w :: vs => v :: .chars [44] :: commas (w :: vs)

/-- An element that is left out when it would be empty. -/
def filled (name : Bytes) : List XVal → List XVal
  | [] => []
  | v :: vs => [.elem name (v :: vs)]

def CarriedX (real : Propset.Real → Bytes) (paths : List (List Nat)) (properties : List (List Nat × List Propset.Property))
    (vs : List XVal) : Prop :=
  ∃ ps gs, vs = filled b!"Paths" (commas (ps.map fun p => .elem b!"Path" [p])) ++ filled b!"properties" gs ∧
    Pointwise (fun p v => NameShownX (p.takeWhile (· ≠ 0)) v) paths ps ∧ Pointwise (GroupShownX real) properties gs

end Fileid.Spec.Report
