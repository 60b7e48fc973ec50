import Verif.Spec.Vba

/-!
# The stream "dir" of a VBA project (MS-OVBA, section 2.3.4.2), independently of the model
-/

namespace Fileid.Spec.Ovba

/-- A record: an identifier of two bytes, the length of its data in four, its data. -/
def record (id : Nat) (data : Bytes) : Bytes := leBytes 2 id ++ (leBytes 4 data.length ++ data)

/-- A record that need not be there. -/
def optional (id : Nat) : Option Bytes → Bytes
  | none => []
  | some data => record id data

/-- A module (MODULE record, section 2.3.4.2.3.2). `streamUnits` are the UTF-16 units of its stream's name. -/
structure ModuleInfo where
  name : Bytes
  nameUnicode : Option Bytes := none
  stream : Bytes
  streamUnits : List Nat
  doc : Bytes := []
  docUnicode : Bytes := []
  offset : Nat
  helpContext : Nat := 0
  cookie : Nat := 0
  procedural : Bool := true
  readOnly : Bool := false
  isPrivate : Bool := false

/-- Its bytes. -/
def ModuleInfo.encode (m : ModuleInfo) : Bytes :=
  record 0x19 m.name ++ optional 0x47 m.nameUnicode ++
  (record 0x1A m.stream ++ record 0x32 (m.streamUnits.flatMap (leBytes 2))) ++
  (record 0x1C m.doc ++ record 0x48 m.docUnicode) ++
  record 0x31 (leBytes 4 m.offset) ++ record 0x1E (leBytes 4 m.helpContext) ++ record 0x2C (leBytes 2 m.cookie) ++
  record (if m.procedural then 0x21 else 0x22) [] ++ (if m.readOnly then record 0x25 [] else []) ++
  (if m.isPrivate then record 0x28 [] else []) ++ record 0x2B []

/-- A reference to another library or project (section 2.3.4.2.2): its name, and the records of one of four kinds
that tell where it is. -/
structure ReferenceInfo where
  name : Bytes
  nameUnicode : Bytes
  kind : Nat
  data : Bytes
  more : List (Nat × Bytes) := []

/-- Its bytes. -/
def ReferenceInfo.encode (r : ReferenceInfo) : Bytes :=
  record 0x16 r.name ++ record 0x3E r.nameUnicode ++ record r.kind r.data ++ r.more.flatMap fun x => record x.1 x.2

/-- A project (section 2.3.4.2.1). -/
structure ProjectInfo where
  sysKind : Nat := 3
  compat : Option Nat := none
  lcid : Nat := 0x409
  lcidInvoke : Nat := 0x409
  codePage : Nat := 1252
  name : Bytes
  doc : Bytes := []
  docUnicode : Bytes := []
  help1 : Bytes := []
  help2 : Bytes := []
  helpContext : Nat := 0
  libFlags : Nat := 0
  major : Nat
  minor : Nat
  constants : Bytes := []
  constantsUnicode : Bytes := []
  references : List ReferenceInfo := []
  cookie : Nat := 0xffff
  modules : List ModuleInfo := []

/-- The records up to the name. -/
def ProjectInfo.head (p : ProjectInfo) : Bytes :=
  record 0x01 (leBytes 4 p.sysKind) ++ optional 0x4A (p.compat.map (leBytes 4)) ++ record 0x02 (leBytes 4 p.lcid) ++
  record 0x14 (leBytes 4 p.lcidInvoke) ++ record 0x03 (leBytes 2 p.codePage)

/-- The records of the project from the name on. -/
def ProjectInfo.body (p : ProjectInfo) : Bytes :=
  record 0x04 p.name ++ (record 0x05 p.doc ++ (record 0x40 p.docUnicode ++ (record 0x06 p.help1 ++
  (record 0x3D p.help2 ++ (record 0x07 (leBytes 4 p.helpContext) ++ (record 0x08 (leBytes 4 p.libFlags) ++
  ((leBytes 2 0x09 ++ leBytes 4 4 ++ leBytes 4 p.major ++ leBytes 2 p.minor) ++
  (record 0x0C p.constants ++ record 0x3C p.constantsUnicode))))))))

/-- The bytes of the (decompressed) stream. -/
def ProjectInfo.dir (p : ProjectInfo) : Bytes :=
  p.head ++ (p.body ++ (p.references.flatMap ReferenceInfo.encode ++ (record 0x0F (leBytes 2 p.modules.length) ++
  record 0x13 (leBytes 2 p.cookie) ++ (p.modules.flatMap ModuleInfo.encode ++ record 0x10 []))))

/-- The numbers that begin the records of a module. -/
def moduleIds : List Nat := [0x19, 0x47, 0x1A, 0x1C, 0x31, 0x1E, 0x2C, 0x21, 0x22, 0x25, 0x28, 0x2B]

/-- Bytes in pairs, none of which is the number of a record of a module. -/
def Quiet : Bytes → Prop
  | [] => True
  | [_] => False
  | a :: b :: rest => a.toNat + 256 * b.toNat ∉ moduleIds ∧ Quiet rest

/-- The bytes from behind the names of the first reference up to the modules. -/
def ProjectInfo.afterNames (p : ProjectInfo) : Bytes :=
  match p.references with
  | [] => []
  | x :: xs => record x.kind x.data ++ (x.more.flatMap fun y => record y.1 y.2) ++ xs.flatMap ReferenceInfo.encode ++
      (record 0x0F (leBytes 2 p.modules.length) ++ record 0x13 (leBytes 2 p.cookie))

end Fileid.Spec.Ovba
