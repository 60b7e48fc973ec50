import Verif.Spec.Bytes

/-!
# File format facts, independently of the model

Taken from the published formats: PE/COFF, Mach-O, RIFF, ISO base media, AutoCAD DWG, MS-DOC, MS-PPT.
-/

namespace Fileid.Spec

/-- The `n` bytes of `content` from offset `off` are the little-endian number `v`. -/
def Num (content : Bytes) (off n v : Nat) : Prop :=
  ∃ bs, At content off bs ∧ bs.length = n ∧ littleEndian bs = v

/-- The `n` bytes of `content` from offset `off` are the big-endian number `v`. -/
def NumBE (content : Bytes) (off n v : Nat) : Prop :=
  ∃ bs, At content off bs ∧ bs.length = n ∧ bigEndian bs = v

/-- `f` gives every key of the list its text and every other key the default text. -/
def Realises {α : Type} (names : List (α × Bytes)) (dflt : Bytes) (f : α → Bytes) : Prop :=
  (∀ e ∈ names, f e.1 = e.2) ∧ ∀ k, (∀ e ∈ names, e.1 ≠ k) → f k = dflt

/-- The text the list gives a key, else the default. -/
def nameOf {α : Type} [DecidableEq α] (names : List (α × Bytes)) (dflt : Bytes) (k : α) : Bytes :=
  match names with
  | [] => dflt
  | e :: es => if e.1 = k then e.2 else nameOf es dflt k

/-! ## PE/COFF -/

/-- Extension of a PE image with characteristics `ch`: bit 12 marks a system file, bit 13 a DLL. -/
def peExtension (ch : Nat) : Bytes :=
  if ch.testBit 12 then b!"sys" else if ch.testBit 13 then b!"dll" else b!"exe"

/-- Names of the COFF characteristics bits 0..15 as the program words them. -/
def peBitNames : List Bytes :=
  [b!"Relocs Stripped", b!"Executable Image", b!"LINE_NUMS_STRIPPED", b!"LOCAL_SYMS_STRIPPED",
   b!"AGGRESSIVE_WS_TRIM", b!"LARGE_ADDRESS_AWARE", b!"REMOVABLE_RUN_FROM_SWAP", b!"BYTES_REVERSED_LO",
   b!"32BIT_MACHINE", b!"DEBUG_STRIPPED", b!"REMOVABLE_RUN_FROM_SWAP", b!"NET_RUN_FROM_SWAP", b!"SYSTEM",
   b!"DLL", b!"UP_SYSTEM_ONLY", b!"BYTES_REVERSED_HI"]

/-- Names of the set bits, lowest first. -/
def bitNames : List Bytes → Nat → List Bytes
  | [], _ => []
  | n :: ns, v => (if v % 2 = 1 then [n] else []) ++ bitNames ns (v / 2)

/-- Machine types of the PE format (`IMAGE_FILE_MACHINE_*`), in numerical order. -/
def peMachines : List (Nat × Bytes) :=
  [(0x0, b!"Unknown"), (0x14c, b!"Intel 386"), (0x166, b!"MIPS little endian"),
   (0x169, b!"MIPS little-endian WCE v2"), (0x1a2, b!"Hitachi SH3"), (0x1a3, b!"Hitachi SH3 DSP"),
   (0x1a6, b!"Hitachi SH4"), (0x1a8, b!"Hitachi SH5"), (0x1c0, b!"ARM little endian"),
   (0x1c2, b!"ARM or Thumb (interworking)"), (0x1c4, b!"ARMv7 (or higher) Thumb mode only"),
   (0x1d3, b!"Matsushita AM33"), (0x1f0, b!"Power PC little endian"),
   (0x1f1, b!"Power PC with floating point support"), (0x200, b!"Intel Itanium"), (0x266, b!"MIPS16"),
   (0x366, b!"MIPS with FPU"), (0x466, b!"MIPS16 with FPU"), (0xebc, b!"EFI byte code"),
   (0x8664, b!"x64"), (0x9041, b!"Mistubishi MR32R little endian"), (0xaa64, b!"ARMv8 in 64-bit mode")]

/-- Subsystems of the PE format (`IMAGE_SUBSYSTEM_*`): a 16-bit field at offset 68 of the optional header. -/
def peSubsystems : List (Nat × Bytes) :=
  [(0, b!"Unknown Subsystem"), (1, b!"Device Driver"), (2, b!"Windows GUI"), (3, b!"Windows CUI"),
   (7, b!"Posix CUI"), (9, b!"Windows CE"), (10, b!"EFI Application"), (11, b!"EFI Service Driver"),
   (12, b!"EFI Runtime Driver"), (13, b!"EFI ROM Image"), (14, b!"XBOX")]

/-- The four bytes at the start of a PE header. -/
def peSignature : Bytes := b!"PE\x00\x00"

/-! ## Mach-O -/

/-- The first four bytes tell the byte order of a Mach-O header (`true`: most significant byte first). -/
def machoBigEndian (magic : Bytes) : Option Bool :=
  if magic = [0xFE, 0xED, 0xFA, 0xCE] ∨ magic = [0xFE, 0xED, 0xFA, 0xCF] then some true
  else if magic = [0xCE, 0xFA, 0xED, 0xFE] ∨ magic = [0xCF, 0xFA, 0xED, 0xFE] then some false
  else none

/-- Cpu types (mach/machine.h, and the program's own words for the rest). -/
def machoCpus : List (Nat × Bytes) :=
  [(1, b!"VAX"), (2, b!"ROMP"), (4, b!"NS32032"), (5, b!"NS32332"), (6, b!"MC680x0"), (7, b!"I386"),
   (8, b!"MIPS"), (9, b!"NS32532"), (11, b!"HPPA"), (12, b!"ARM"), (13, b!"MC88000"), (14, b!"SPARC"),
   (15, b!"I860"), (16, b!"I860_LITTLE"), (17, b!"RS6000"), (18, b!"POWERPC"), (255, b!"VEO"),
   (0x1000000, b!"ARCH_ABI64"), (0x1000007, b!"X86_64"), (0x1000012, b!"POWERPC64"),
   (0xffffffff, b!"ANY")]

/-! ## RIFF, DWG -/

/-- Form type and first chunk of the RIFF kinds with an extension of their own. -/
def riffKinds : List (Bytes × Bytes) :=
  [(b!"CDDAfmt ", b!"cda"), (b!"WAVEfmt ", b!"wav"), (b!"AVI LIST", b!"avi"), (b!"QLCMfmt ", b!"qcp"),
   (b!"RMIDdata", b!"rmi")]

/-- The AutoCAD release behind the last two characters of the version tag `AC10xx`. -/
def dwgReleases : List (Bytes × Bytes) :=
  [(b!"02", b!"AutoCAD R2.5"), (b!"03", b!"AutoCAD R2.6"), (b!"04", b!"AutoCAD R9"), (b!"06", b!"AutoCAD R10"),
   (b!"09", b!"AutoCAD R11/R12"), (b!"10", b!"AutoCAD R13 (subtype 10)"), (b!"11", b!"AutoCAD R13 (subtype 11)"),
   (b!"12", b!"AutoCAD R13 (subtype 12)"), (b!"13", b!"AutoCAD R14 (subtype 13)"),
   (b!"14", b!"AutoCAD R14 (subtype 14)"), (b!"15", b!"AutoCAD R2000"), (b!"18", b!"AutoCAD R2004"),
   (b!"21", b!"AutoCAD R2007")]

/-! ## Office -/

/-- nFib values of the Word versions (MS-DOC). -/
def wordReleases : List (Nat × Bytes) :=
  [(33, b!"WinWord1.0"), (45, b!"WinWord2.0"), (101, b!"WinWord6.0"), (104, b!"Word95_Or_Word6"),
   (105, b!"Word95Beta"), (193, b!"Word97"), (217, b!"Word2000"), (257, b!"Word2002"), (268, b!"Word2003"),
   (274, b!"Word2005_Compat2003"), (314, b!"Word2005")]

/-- The version number of a Word document (MS-DOC 2.5.1): `nFibNew` of the block that follows the
`cbRgFcLcb` pairs when that block is there and not empty, otherwise `nFib` of the FIB base. -/
def WordVersion (stream : Bytes) (v : Nat) : Prop :=
  ∃ cb, Num stream 152 2 cb ∧
    ((cb ≤ 255 ∧ ∃ csw, Num stream (154 + 8 * cb) 2 csw ∧ csw ≠ 0 ∧ Num stream (154 + 8 * cb + 2) 2 v) ∨
     ((255 < cb ∨ stream.length < 154 + 8 * cb + 4 ∨ Num stream (154 + 8 * cb) 2 0) ∧ Num stream 2 2 v))

/-- The version of a PowerPoint document (MS-PPT 2.3.2, 2.3.3): `offsetToCurrentEdit` at offset 16 of the
stream `Current User` points to the UserEditAtom in the document stream, whose version is at its offset 12. -/
def PptVersion (currentUser stream : Bytes) (v : Nat) : Prop :=
  ∃ off, Num currentUser 16 4 off ∧ Num stream (off + 12) 2 v

def publisherReleases : List (Nat × Bytes) :=
  [(125, b!"Publisher 3"), (136, b!"Publisher 4"), (616, b!"Publisher 5"), (717, b!"Publisher 6"),
   (1000, b!"Publisher 10")]

def visioReleases : List (Nat × Bytes) :=
  [(1, b!"Visio 1"), (2, b!"Visio 2"), (3, b!"Visio 3"), (4, b!"Visio 4"), (5, b!"Visio 5"),
   (6, b!"Visio 2000"), (10, b!"Visio 2002"), (11, b!"Visio 2003 or greater")]

/-- Build numbers of the PowerPoint releases, newest product first (one number each). -/
def pptReleases : List (Nat × Bytes) :=
  [(4569, b!"Office 2013 SP1"), (4420, b!"Office 2013 RTM"), (4128, b!"Office 2013 Preview"),
   (7015, b!"Office 2010 SP2"), (6029, b!"Office 2010 SP1"), (4763, b!"Office 2010 RTM"),
   (6425, b!"Office 2007 SP2"), (6211, b!"Office 2007 SP1"), (4518, b!"Office 2007 RTM"),
   (8173, b!"Office 2003 SP3"), (7969, b!"Office 2003 SP2"), (6361, b!"Office 2003 SP1"),
   (5529, b!"Office 2003 RTM"), (6501, b!"Office XP SP3"), (4205, b!"Office XP SP2"),
   (3506, b!"Office XP SP1"), (2623, b!"Office XP RTM"), (6620, b!"Office 2000 SP3"),
   (4527, b!"Office 2000 SP2"), (3821, b!"Office 2000 SP1"), (2716, b!"Office 2000 RTM"),
   (3516, b!"Office 97 RTM"), (4208, b!"Office 97 SR1"), (5507, b!"Office 97 SR2")]

/-- The text occurs somewhere in the content. -/
def Occurs (text content : Bytes) : Prop := ∃ off, At content off text

end Fileid.Spec
