import Verif.Spec.ReportExcel
import Verif.Model.VbaProject

/-!
# What the JSON and XML reports about a VBA project contain
-/

namespace Fileid.Spec.Report

open Common Vba

/-- A member that is left out when the number is zero. -/
def counted (key : Bytes) (n : Nat) : List (Bytes × JVal) := if n = 0 then [] else [(key, .nat n)]

/-- A module: names, position of the source text, flags and source text. -/
def moduleValue (m : Module) : JVal :=
  .obj [(b!"Name", shown m.Name), (b!"StreamName", shown m.StreamName), (b!"Offset", .nat m.Offset),
    (b!"isPrivate", .nat (if m.isPrivate then 1 else 0)), (b!"isReadOnly", .nat (if m.isReadOnly then 1 else 0)),
    (b!"Code", shown m.Code)]

/-- A project: its name, version, references and modules. -/
def projectMembers (v : VbaInfo) : List (Bytes × JVal) :=
  (if v.ProjectName = [] then [] else [(b!"projectname", shown v.ProjectName)]) ++
  counted b!"VBAVersionMajor" v.VBAVersionMajor ++ counted b!"VBAVersionMinor" v.VBAVersionMinor ++
  listed b!"References" (v.References.map .text) ++ listed b!"Modules" (v.Modules.map moduleValue)

/-- The names of the references, which are written as they are, have only characters that stand for themselves. -/
def ClearProject (v : VbaInfo) : Prop := ∀ r ∈ v.References, Clear r

/-! ## XML -/

def countedX (key : Bytes) (n : Nat) : List XVal := if n = 0 then [] else [numX key n]

def ModuleShownX (m : Module) (v : XVal) : Prop :=
  ∃ name stream, TextX b!"Name" m.Name name ∧ TextX b!"StreamName" m.StreamName stream ∧
    v = .elem b!"Module" [name, stream, numX b!"Offset" m.Offset, numX b!"isPrivate" (if m.isPrivate then 1 else 0),
      numX b!"isReadOnly" (if m.isReadOnly then 1 else 0), .leaf b!"Code" m.Code]

/-- There is a comma between two modules. -/
def ProjectShownX (v : VbaInfo) (vs : List XVal) : Prop :=
  ∃ name mods, (if v.ProjectName = [] then name = [] else ∃ n, name = [n] ∧ TextX b!"projectname" v.ProjectName n) ∧
    Pointwise ModuleShownX v.Modules mods ∧
    vs = name ++ countedX b!"VBAVersionMajor" v.VBAVersionMajor ++ countedX b!"VBAVersionMinor" v.VBAVersionMinor ++
      filled b!"References" (v.References.map (.leaf b!"Reference")) ++ filled b!"Modules" (commas mods)

/-- The texts may stand in XML, and the source texts, which stand in CDATA sections as they are, are ASCII and do not
end the section. -/
def LegalProject (v : VbaInfo) : Prop :=
  LegalText v.ProjectName ∧ ∀ m ∈ v.Modules, LegalText m.Name ∧ LegalText m.StreamName ∧
    (∀ c ∈ m.Code, XmlUnit c.toNat ∧ c.toNat < 128) ∧ ¬ ∃ a b, m.Code = a ++ b!"]]>" ++ b

end Fileid.Spec.Report
