import Verif.Spec.Workbook

/-!
# Workbook streams of Excel 5.0 and 95 (BIFF5), independently of the model

The records are those of later workbooks. A sheet's declaration has a name of one byte for each character, without
flags. The substream of a chart that is embedded into a sheet stands within that sheet's substream.
-/

namespace Fileid.Spec.Biff

/-- What a `BOUNDSHEET` record of BIFF5 declares: where the sheet's substream begins, whether it is hidden, its kind,
and its name. -/
structure OldDecl where
  offset : Nat
  state : UInt8
  kind : UInt8
  name : Bytes
  deriving DecidableEq, Repr

def OldDecl.Valid (d : OldDecl) : Prop := d.offset < 2 ^ 32 ∧ d.name.length < 256

instance (d : OldDecl) : Decidable d.Valid := inferInstanceAs (Decidable (_ ∧ _))

def OldDecl.record (d : OldDecl) : Record :=
  ⟨boundSheetType, leBytes 4 d.offset ++ [d.state, d.kind, UInt8.ofNat d.name.length] ++ d.name⟩

/-- A record of the substream that describes the workbook. -/
inductive OldGlobal
  | sheet (d : OldDecl)
  | other (r : Record)

def OldGlobal.record : OldGlobal → Record
  | .sheet d => d.record
  | .other r => r

/-- The sheets that are declared. -/
def oldDeclared : List OldGlobal → List OldDecl
  | [] => []
  | .sheet d :: gs => d :: oldDeclared gs
  | .other _ :: gs => oldDeclared gs

/-- A workbook of BIFF5: its description, and the substreams of its sheets. -/
structure OldBook where
  bof : Record
  globals : List OldGlobal
  sheets : List (List Record)

/-- The records that describe the workbook. -/
def OldBook.head (w : OldBook) : List Record := w.bof :: w.globals.map OldGlobal.record

def OldBook.records (w : OldBook) : List Record := w.head ++ w.sheets.flatten

/-- Where the substreams of the sheets begin. -/
def OldBook.starts (w : OldBook) : List (Nat × List Record) := Biff.starts (stream w.head).length w.sheets

structure OldBook.Valid (w : OldBook) : Prop where
  records : ∀ r ∈ w.records, r.Valid ∧ r.type ≠ filePassType
  bof : w.bof.type ∈ bofTypes ∧ 2 ≤ w.bof.data.length ∧ bofVersion w.bof.data = 0x0500
  decls : ∀ d, OldGlobal.sheet d ∈ w.globals → d.Valid
  others : ∀ r, OldGlobal.other r ∈ w.globals → r.type ∉ bofTypes ∧ r.type ≠ boundSheetType
  begins : ∀ s ∈ w.sheets, ∃ b body, s = b :: body ∧ b.type ∈ bofTypes
  sheets : ∀ s ∈ w.sheets, ∀ r ∈ s, r.type ≠ boundSheetType

/-- No substream within that of a sheet. -/
def OldBook.Flat (w : OldBook) : Prop := ∀ s ∈ w.sheets, ∀ r ∈ s.tail, r.type ∉ bofTypes

/-- The substreams stand in the order of their declarations, one for each. -/
def OldBook.InOrder (w : OldBook) : Prop := (oldDeclared w.globals).map OldDecl.offset = w.starts.map Prod.fst

/-- The types of records that begin a substream in a version: one for each of BIFF5, BIFF4, BIFF3 and BIFF2. For other
versions, any of these. -/
def beginsIn (version : Nat) : List Nat :=
  if version = 0x0500 then [0x0809]
  else if version = 0x0400 then [0x0409]
  else if version = 0x0300 then [0x0209]
  else if version = 0x0200 then [0x0009]
  else bofTypes

/-- Substreams dealt out to the sheets one after the other, the last sheet getting all that are left: what the sheet
with number `i` of `n` gets if the first substream goes to the one with number `j`. -/
def dealt (n i : Nat) : Nat → List (List Record) → List Record
  | _, [] => []
  | j, s :: ss => (if min j (n - 1) = i then s else []) ++ dealt n i (j + 1) ss

end Fileid.Spec.Biff
