import Verif.Spec.Cfb

/-!
# Documents in compound files, independently of the model

The objects of a compound file as a tree, the order in which a walk meets them, and the streams that tell the kind
of a document.
-/

namespace Fileid.Spec.Ole

/-- A text of 16-bit units from ASCII bytes. -/
def text (s : Bytes) : List Nat := s.map UInt8.toNat

/-- The objects inside a storage, in the order of its directory. -/
inductive Objects
  | nil
  | stream (name : List Nat) (rest : Objects)
  | storage (name : List Nat) (inside rest : Objects)
  deriving DecidableEq, Repr

/-- An object met on a walk: its name, its path and whether it is a storage. -/
structure Visit where
  name : List Nat
  path : List Nat
  isStorage : Bool
  deriving DecidableEq, Repr

namespace Objects

/-- All objects, each storage before what is inside it; `dir` is the path of the storage they are in, with a slash
at its end. -/
def visits : List Nat → Objects → List Visit
  | _, nil => []
  | dir, stream n rest => ⟨n, dir ++ n, false⟩ :: visits dir rest
  | dir, storage n inside rest => ⟨n, dir ++ n, true⟩ :: (visits (dir ++ n ++ text b!"/") inside ++ visits dir rest)

/-- How many storages may be inside one another. -/
def depth : Objects → Nat
  | nil => 0
  | stream _ rest => depth rest
  | storage _ inside rest => max (depth inside + 1) (depth rest)

end Objects

/-- The entries with the given numbers hold the given objects; `isStorage`, `name` and `kids` tell of every entry
whether it is a storage, its name and its children. -/
inductive Holds (isStorage : Nat → Bool) (name : Nat → List Nat) (kids : Nat → List Nat) : List Nat → Objects → Prop
  | nil : Holds isStorage name kids [] .nil
  | stream {j : Nat} {js : List Nat} {rest : Objects} : isStorage j = false → Holds isStorage name kids js rest →
      Holds isStorage name kids (j :: js) (.stream (name j) rest)
  | storage {j : Nat} {js : List Nat} {inside rest : Objects} : isStorage j = true →
      Holds isStorage name kids (kids j) inside → Holds isStorage name kids js rest →
      Holds isStorage name kids (j :: js) (.storage (name j) inside rest)

/-- The path under which a visited object is listed: storages with a slash at the end. -/
def Visit.listed (v : Visit) : List Nat := if v.isStorage then v.path ++ text b!"/" else v.path

/-! ## Kinds of documents -/

/-- Equality of texts up to the case of ASCII letters. -/
def lower (u : Nat) : Nat := if 65 ≤ u ∧ u ≤ 90 then u + 32 else u
def SameLetters (a b : List Nat) : Prop := a.map lower = b.map lower

/-- A stream that tells the kind of a document: its path, whether the case of letters is ignored, the extensions of
such documents, whether the content of the stream is looked at, too. -/
structure Marker where
  path : List Nat
  anyCase : Bool
  extensions : List Bytes
  looksInside : Bool := false

/-- The streams that tell the kind of a document. -/
def markers : List Marker := [
  ⟨text b!"/DRMContent", false, [b!"irm"], false⟩,
  ⟨text b!"/" ++ [6] ++ text b!"DataSpaces/DataSpaceMap", false, [b!"irm"], false⟩,
  ⟨text b!"/WordDocument", false, [b!"doc"], true⟩,
  ⟨text b!"/Workbook", true, [b!"xls"], true⟩,
  ⟨text b!"/Book", true, [b!"xls"], true⟩,
  ⟨text b!"/PowerPoint Document", false, [b!"ppt"], true⟩,
  ⟨text b!"/PP40", false, [b!"ppt"], false⟩,
  ⟨text b!"/Contents", false, [b!"pub"], true⟩,
  ⟨text b!"/VisioDocument", false, [b!"vsd"], true⟩,
  ⟨text b!"/__properties_version1.0", false, [b!"msg"], false⟩,
  ⟨text b!"/Binder", false, [b!"obd"], false⟩,
  ⟨text b!"/Props9", false, [b!"mpp"], false⟩,
  ⟨text b!"/Props12", false, [b!"mpp"], false⟩,
  ⟨text b!"/Props14", false, [b!"mpp"], false⟩,
  ⟨text b!"/Details", false, [b!"bup"], false⟩,
  ⟨text b!"/CONTENTS", false, [b!"wps"], false⟩,
  ⟨text b!"/MatOST", false, [b!"wps"], false⟩,
  ⟨text b!"/StarCalcDocument", false, [b!"sdc"], false⟩,
  ⟨text b!"/StarWriterDocument", false, [b!"sdw"], false⟩,
  ⟨text b!"/HwpSummaryInformation", false, [b!"hwp"], false⟩,
  ⟨text b!"/" ++ [5] ++ text b!"HwpSummaryInformation", false, [b!"hwp"], false⟩,
  ⟨text b!"/PerfectOffice_MAIN", false, [b!"wp"], true⟩,
  ⟨text b!"/" ++ [0x4840, 0x3f3f, 0x4577, 0x446c, 0x3b6a, 0x45e4, 0x4824], false, [b!"msi", b!"msm", b!"msp"], true⟩,
  ⟨text b!"/" ++ [1] ++ text b!"Ole10Native", true, [b!"ole_embedded"], false⟩,
  ⟨text b!"/TravelLog", false, [b!"ole_dat"], false⟩,
  ⟨text b!"/Equation Native", true, [b!"ole_eq"], false⟩]

/-- The marker tells the kind of the document with a stream of this path. -/
def Marker.Tells (m : Marker) (path : List Nat) : Prop :=
  if m.anyCase then SameLetters path m.path else path = m.path

instance (m : Marker) (path : List Nat) : Decidable (m.Tells path) := by
  unfold Marker.Tells SameLetters; infer_instance

/-- The names of streams that hold property sets. -/
def propertyNames : List (List Nat) :=
  [5 :: text b!"DocumentSummaryInformation", 5 :: text b!"SummaryInformation", text b!"GlobalInfo",
    text b!"ImageContents", text b!"ImageInfo"]

/-- The storages that hold a VBA project: by their name anywhere, or at the top. -/
def Visit.isVba (v : Visit) : Bool :=
  v.isStorage && (decide (v.name ∈ [text b!"Macros", text b!"_VBA_PROJECT_CUR"]) ||
    decide (v.path ∈ [text b!"/VBA", text b!"/VBA_Project"]))

/-- What an object of a document tells about it: a list of extensions one of which is reported. A storage with a VBA
project tells that there is one, a marker stream tells the kind of the document. -/
def Visit.tells (v : Visit) : Option (List Bytes) :=
  if v.isStorage then if v.isVba then some [b!"vba"] else none
  else if v.name ∈ propertyNames then none
  else (markers.find? fun m => decide (m.Tells v.path)).map (·.extensions)

/-- What the objects of a document tell, in the order of the walk; one that tells nothing is just a compound
file. -/
def told (vs : List Visit) : List (List Bytes) :=
  if vs.filterMap Visit.tells = [] then [[b!"oless"]] else vs.filterMap Visit.tells

/-- The reported extensions are those told, one by one. -/
inductive Agrees : List Bytes → List (List Bytes) → Prop
  | nil : Agrees [] []
  | cons {e : Bytes} {es : List Bytes} {exts : List Bytes} {rest : List (List Bytes)} : e ∈ exts → Agrees es rest →
      Agrees (e :: es) (exts :: rest)

/-- The path does not turn into a marker when its units lose their high bytes. -/
def Visit.Plain (v : Visit) : Prop := ∀ m ∈ markers, m.anyCase = true →
  SameLetters (v.path.map (· % 256)) m.path → SameLetters v.path m.path

/-! ## Contents of streams -/

/-- The content of a stream of `size` bytes that starts with sector `start`: the first `size` bytes of its sectors,
or of its mini sectors when it is smaller than 4096 bytes. -/
def StreamContent (file : Bytes) (h : CfbHeader) (fat minifat mini : List Nat) (start size : Nat) (content : Bytes) :
    Prop :=
  content.length = size ∧
  if 4096 ≤ size then ∃ sectors bytes, Chain fat start sectors ∧ Content file (2 ^ h.shift) sectors bytes ∧
    At bytes 0 content
  else ∃ sectors ministream bytes, ChainOrNone minifat start sectors ∧ Content file (2 ^ h.shift) mini ministream ∧
    MiniContent ministream (2 ^ h.miniShift) sectors bytes ∧ At bytes 0 content

end Fileid.Spec.Ole
