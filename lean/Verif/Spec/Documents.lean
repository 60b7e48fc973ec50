import Verif.Spec.Oless
import Verif.Spec.Formats
import Verif.Model.Common

/-!
# Documents in compound files: their types, versions and names
-/

namespace Fileid.Spec.Ole

/-- What the stream of a document is looked through for. -/
inductive Inspection
  | nothing
  | word
  | workbook
  | presentation
  | publication
  | drawing
  | wordPerfect
  | installer
  deriving DecidableEq

/-- A type of documents: the path of the stream by which it is known, whether the case of letters matters there, the
extension, the name and the version of such documents. -/
structure DocumentType where
  path : List Nat
  anyCase : Bool
  extension : Bytes
  name : Bytes
  version : Bytes
  inspection : Inspection
  deriving DecidableEq

/-- data.xml, the element `OlessItems` (lines 180-219), without the subtypes. -/
def documentTypes : List DocumentType := [
  ⟨text b!"/DRMContent", false, b!"irm", b!"Microsoft Office Information Rights Managed File", b!"", .nothing⟩,
  ⟨text b!"/" ++ [6] ++ text b!"DataSpaces/DataSpaceMap", false, b!"irm", b!"Microsoft Office Encrypted Office File",
    b!"", .nothing⟩,
  ⟨text b!"/WordDocument", false, b!"doc", b!"Microsoft Office Word File", b!"", .word⟩,
  ⟨text b!"/Workbook", true, b!"xls", b!"Microsoft Office Excel File", b!"", .workbook⟩,
  ⟨text b!"/Book", true, b!"xls", b!"Microsoft Office Excel File", b!"", .workbook⟩,
  ⟨text b!"/PowerPoint Document", false, b!"ppt", b!"Microsoft Office PowerPoint File", b!"", .presentation⟩,
  ⟨text b!"/PP40", false, b!"ppt", b!"Microsoft Office PowerPoint File", b!"Powerpoint 4.0", .nothing⟩,
  ⟨text b!"/Contents", false, b!"pub", b!"Microsoft Office Publisher File", b!"", .publication⟩,
  ⟨text b!"/VisioDocument", false, b!"vsd", b!"Microsoft Office Visio File", b!"", .drawing⟩,
  ⟨text b!"/__properties_version1.0", false, b!"msg", b!"Microsoft Office Outlook Mail Message", b!"", .nothing⟩,
  ⟨text b!"/Binder", false, b!"obd", b!"Microsoft Office Binder", b!"", .nothing⟩,
  ⟨text b!"/Props9", false, b!"mpp", b!"Microsoft Project File", b!"Project 9", .nothing⟩,
  ⟨text b!"/Props12", false, b!"mpp", b!"Microsoft Project File", b!"Project 12", .nothing⟩,
  ⟨text b!"/Props14", false, b!"mpp", b!"Microsoft Project File", b!"Project 14", .nothing⟩,
  ⟨text b!"/Details", false, b!"bup", b!"McAfee Quarantied File", b!"", .nothing⟩,
  ⟨text b!"/CONTENTS", false, b!"wps", b!"Microsoft Works File", b!"", .nothing⟩,
  ⟨text b!"/MatOST", false, b!"wps", b!"Microsoft Works File", b!"", .nothing⟩,
  ⟨text b!"/StarCalcDocument", false, b!"sdc", b!"StarOffice Calc File", b!"", .nothing⟩,
  ⟨text b!"/StarWriterDocument", false, b!"sdw", b!"StarOffice Write File", b!"", .nothing⟩,
  ⟨text b!"/HwpSummaryInformation", false, b!"hwp", b!"Hangul Word Processor File", b!"", .nothing⟩,
  ⟨text b!"/" ++ [5] ++ text b!"HwpSummaryInformation", false, b!"hwp", b!"Hangul Word Processor File", b!"", .nothing⟩,
  ⟨text b!"/PerfectOffice_MAIN", false, b!"wp", b!"WordPerfect File", b!"", .wordPerfect⟩,
  ⟨text b!"/" ++ [0x4840, 0x3F3F, 0x4577, 0x446C, 0x3B6A, 0x45E4, 0x4824], false, b!"msi", b!"Microsoft Installer File",
    b!"", .installer⟩,
  ⟨text b!"/" ++ [1] ++ text b!"Ole10Native", true, b!"ole_embedded", b!"OLE Native Stream (Embedded Object)", b!"",
    .nothing⟩,
  ⟨text b!"/TravelLog", false, b!"ole_dat", b!"Internet Explorer Recovery Store", b!"", .nothing⟩,
  ⟨text b!"/Equation Native", true, b!"ole_eq", b!"OLE Equation Editor", b!"", .nothing⟩]

/-- The stream with this path shows that the document has this type. -/
def DocumentType.Known (t : DocumentType) (path : List Nat) : Prop :=
  if t.anyCase then SameLetters path t.path else path = t.path

instance (t : DocumentType) (path : List Nat) : Decidable (t.Known path) := by
  unfold DocumentType.Known SameLetters; infer_instance

/-- The object shows of which type the document is. -/
def Visit.showsType (v : Visit) : Bool :=
  !v.isStorage && !decide (v.name ∈ propertyNames) && documentTypes.any fun t => decide (t.Known v.path)

/-- What is told of a document: extension, name, number and name of the version. -/
structure Card where
  extension : Bytes
  name : Bytes
  version : Nat
  versionName : Bytes

/-- The result that tells this. -/
def Card.info (c : Card) : Common.ExtInfo :=
  { Extension := c.extension, Name := c.name, Version := c.version, VersionName := c.versionName }

/-- The stream that shows the type of a document is long enough to hold the version (of a publication: where the
program takes it to be when its `unsigned long` has `long` bytes). -/
def LongEnough (long : Nat) (i : Inspection) (content : Bytes) : Prop :=
  match i with
  | .publication => 6 ≤ content.length ∧ (Num content 4 2 300 → 10 + long ≤ content.length)
  | .drawing => 28 ≤ content.length
  | _ => True

/-- The name of a PowerPoint build: that of a release whose build number is at most ten away. -/
def PptName (version : Nat) (name : Bytes) : Prop :=
  (version = 0 ∧ name = b!"Non-Office") ∨
  (version ≠ 0 ∧ ∃ r ∈ pptReleases, version ≤ r.1 + 10 ∧ r.1 ≤ version + 10 ∧ name = r.2) ∨
  (version ≠ 0 ∧ (∀ r ∈ pptReleases, ¬ (version ≤ r.1 + 10 ∧ r.1 ≤ version + 10)) ∧ name = b!"Unknown")

/-- What is to be told of a document of type `t` in whose stream the bytes `content` are; `user` is the content of the
stream `/Current User` of a presentation. Numbers that cannot be read are told as 65535. (Workbooks and WordPerfect
documents are left out.) -/
def DocumentType.Tells (t : DocumentType) (user content : Bytes) (c : Card) : Prop :=
  match t.inspection with
  | .nothing => c = ⟨t.extension, t.name, 0, t.version⟩
  | .word => c.extension = t.extension ∧ c.name = t.name ∧
    (154 ≤ content.length → WordVersion content c.version) ∧ (content.length < 154 → c.version = 65535) ∧
    c.versionName = nameOf wordReleases b!"Unknown" c.version
  | .presentation => c.extension = t.extension ∧ c.name = t.name ∧
    (user.length < 28 → c.version = 65535) ∧
    (28 ≤ user.length → ∀ off, Num user 16 4 off →
      (content.length < off + 36 → c.version = 65535) ∧
      (off + 36 ≤ content.length → PptVersion user content c.version)) ∧
    PptName c.version c.versionName
  | .publication => c.extension = t.extension ∧ c.name = t.name ∧
    ((Num content 4 2 c.version ∧ c.version ≠ 300) ∨ (Num content 4 2 300 ∧ Num content 12 2 c.version)) ∧
    c.versionName = nameOf publisherReleases b!"Unknown" c.version
  | .drawing => c.extension = t.extension ∧ c.name = t.name ∧
    Num content 26 2 c.version ∧ c.versionName = nameOf visioReleases b!"Unknown" c.version
  | .installer => c.version = 0 ∧ c.versionName = t.version ∧
    ((Occurs b!"ModuleAdminExecuteSequence" content ∧ c.extension = b!"msm" ∧
        c.name = b!"Microsoft Installer Merge File") ∨
      (¬ Occurs b!"ModuleAdminExecuteSequence" content ∧ ¬ Occurs b!"InstallExecuteSequence" content ∧
        Occurs b!"MsiPatchSequence" content ∧ c.extension = b!"msp" ∧ c.name = b!"Microsoft Installer Patch File") ∨
      (¬ Occurs b!"ModuleAdminExecuteSequence" content ∧
        (Occurs b!"InstallExecuteSequence" content ∨ ¬ Occurs b!"MsiPatchSequence" content) ∧
        c.extension = t.extension ∧ c.name = t.name))
  | .workbook => False
  | .wordPerfect => False

end Fileid.Spec.Ole
