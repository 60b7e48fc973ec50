import Verif.Spec.Formats

/-!
# Compound files (MS-CFB), independently of the model

Sectors, allocation tables as lists of 32-bit entries, sector chains, sibling trees of directory entries.
-/

namespace Fileid.Spec

/-- `bs` is sector `n` of the file when sectors have `ss` bytes; the header occupies the place before
sector 0. -/
def Sector (file : Bytes) (ss n : Nat) (bs : Bytes) : Prop := At file (ss * (n + 1)) bs ∧ bs.length = ss

/-- `content` is the concatenation of the listed sectors. -/
inductive Content (file : Bytes) (ss : Nat) : List Nat → Bytes → Prop
  | nil : Content file ss [] []
  | cons {n : Nat} {rest : List Nat} {bs content : Bytes} :
      Sector file ss n bs → Content file ss rest content → Content file ss (n :: rest) (bs ++ content)

/-- `content` is the concatenation of the listed mini sectors: pieces of `mss` bytes of the mini stream, the first
of them at its start. -/
inductive MiniContent (mini : Bytes) (mss : Nat) : List Nat → Bytes → Prop
  | nil : MiniContent mini mss [] []
  | cons {n : Nat} {rest : List Nat} {bs content : Bytes} :
      At mini (mss * n) bs → bs.length = mss → MiniContent mini mss rest content →
      MiniContent mini mss (n :: rest) (bs ++ content)

/-- The bytes are the 32-bit little-endian words. -/
def Words (bs : Bytes) (ws : List Nat) : Prop :=
  bs.length = 4 * ws.length ∧ ∀ i w, ws[i]? = some w → Num bs (4 * i) 4 w

/-- The chain that starts with sector `s`: every sector of it is inside the table, the table entry of each but
the last is the next one, the entry of the last is a mark (a number that is no sector of the table). -/
inductive Chain (fat : List Nat) : Nat → List Nat → Prop
  | last {s e : Nat} : fat[s]? = some e → fat.length ≤ e → Chain fat s [s]
  | next {s n : Nat} {rest : List Nat} :
      fat[s]? = some n → n < fat.length → Chain fat n rest → Chain fat s (s :: rest)

/-- A list of numbers of sectors read from a chain of `k` DIFAT sectors that starts with sector `s`: `need` of them
are wanted, every sector but the last gives all its words but the last word, which is the number of the next
sector. -/
inductive Difat (file : Bytes) (ss : Nat) : Nat → Nat → Nat → List Nat → Prop
  | last {s need : Nat} {bs : Bytes} {ws : List Nat} : Sector file ss s bs → Words bs ws → need < ws.length →
      Difat file ss 1 s need (ws.take need)
  | next {k s next need : Nat} {bs : Bytes} {es rest : List Nat} : Sector file ss s bs → Words bs (es ++ [next]) →
      es.length < need → Difat file ss k next (need - es.length) rest → Difat file ss (k + 1) s need (es ++ rest)

/-- The header fields that matter for reading (MS-CFB 2.2). -/
structure CfbHeader where
  shift : Nat
  miniShift : Nat
  fatCount : Nat
  dirStart : Nat
  cutoff : Nat
  miniFatStart : Nat
  difatStart : Nat
  difatCount : Nat
  difat : List Nat

/-- The fields as stored in the first 512 bytes. -/
structure CfbHeader.Stored (c : Bytes) (h : CfbHeader) : Prop where
  signature : At c 0 [0xd0, 0xcf, 0x11, 0xe0, 0xa1, 0xb1, 0x1a, 0xe1]
  length : 512 ≤ c.length
  shift : Num c 0x1e 2 h.shift
  miniShift : Num c 0x20 2 h.miniShift
  fatCount : Num c 0x2c 4 h.fatCount
  dirStart : Num c 0x30 4 h.dirStart
  cutoff : Num c 0x38 4 h.cutoff
  miniFatStart : Num c 0x3c 4 h.miniFatStart
  difatStart : Num c 0x44 4 h.difatStart
  difatCount : Num c 0x48 4 h.difatCount
  slots : h.difat.length = 109
  difat : ∀ i b, h.difat[i]? = some b → Num c (0x4c + 4 * i) 4 b

/-- What a reader may demand of a header. -/
structure CfbHeader.Good (h : CfbHeader) : Prop where
  cutoff : h.cutoff = 4096
  fatCount : 0 < h.fatCount
  difat : h.fatCount < 109 → h.difatCount = 0
  shift : 6 < h.shift ∧ h.shift < 31
  miniShift : h.miniShift ≤ h.shift

/-- The sectors that hold the FAT. -/
def FatSectors (file : Bytes) (h : CfbHeader) (fs : List Nat) : Prop :=
  (h.fatCount ≤ 109 ∧ fs = h.difat.take h.fatCount) ∨
    (109 < h.fatCount ∧ ∃ rest, Difat file (2 ^ h.shift) h.difatCount h.difatStart (h.fatCount - 109) rest ∧
      fs = h.difat ++ rest)

/-- The chain from `s` on, or no sector when `s` is outside the table. -/
def ChainOrNone (fat : List Nat) (s : Nat) (sectors : List Nat) : Prop :=
  Chain fat s sectors ∨ (fat.length ≤ s ∧ sectors = [])

/-- A compound file: its FAT, the words of its mini FAT, the bytes of its directory and the sectors of its mini
stream. -/
structure CfbImage (file : Bytes) (h : CfbHeader) (fat minifat : List Nat) (dir : Bytes) (mini : List Nat) :
    Prop where
  stored : h.Stored file
  good : h.Good
  hfat : ∃ fs bytes, FatSectors file h fs ∧ fs.length = h.fatCount ∧ Content file (2 ^ h.shift) fs bytes ∧
    Words bytes fat
  hfatSize : fat.length ≤ 0xfffffffc
  hminifat : ∃ ms bytes, ChainOrNone fat h.miniFatStart ms ∧ Content file (2 ^ h.shift) ms bytes ∧
    Words bytes minifat
  hdir : ∃ ds, Chain fat h.dirStart ds ∧ Content file (2 ^ h.shift) ds dir
  hmini : ∃ s, Num dir 0x74 4 s ∧ ChainOrNone fat s mini

/-- The 16-bit units from offset `off` on. -/
def UnitsAt (c : Bytes) (off : Nat) (us : List Nat) : Prop := ∀ k u, us[k]? = some u → Num c (off + 2 * k) 2 u

/-- A binary tree of directory entry numbers. -/
inductive SibTree
  | leaf
  | node (left : SibTree) (i : Nat) (right : SibTree)

namespace SibTree

/-- The entries from left to right. -/
def inorder : SibTree → List Nat
  | leaf => []
  | node l i r => l.inorder ++ [i] ++ r.inorder

/-- The links `left` and `right` of a directory of `n` entries form the given tree below a link. A link that is
no entry number stands for an empty subtree. -/
inductive Below (n : Nat) (left right : Nat → Nat) : Nat → SibTree → Prop
  | leaf {link : Nat} : n ≤ link → Below n left right link .leaf
  | node {i : Nat} {l r : SibTree} : i < n → Below n left right (left i) l → Below n left right (right i) r →
      Below n left right i (.node l i r)

/-- A search tree: what is left of an entry comes before it, what is right of it comes after it. -/
inductive Ordered (before : Nat → Nat → Prop) : SibTree → Prop
  | leaf : Ordered before .leaf
  | node {l r : SibTree} {i : Nat} : (∀ j ∈ l.inorder, before j i) → (∀ j ∈ r.inorder, before i j) →
      Ordered before l → Ordered before r → Ordered before (.node l i r)

end SibTree

/-- Walking down from entry `i` along the names `names` leads to the given entry; `kids` gives the children of an
entry and `name` the name of one. -/
inductive Resolves (kids : Nat → List Nat) (name : Nat → List Nat) : Nat → List (List Nat) → Nat → Prop
  | here {i : Nat} : Resolves kids name i [] i
  | down {i j k : Nat} {names : List (List Nat)} : j ∈ kids i → Resolves kids name j names k →
      Resolves kids name i (name j :: names) k

/-- The order of names: shorter ones first, names of one length by their first different unit (compared by
`value`). -/
def NameBefore (value : Nat → Int) (a b : List Nat) : Prop :=
  a.length < b.length ∨
    (a.length = b.length ∧ ∃ k x y, a.take k = b.take k ∧ a[k]? = some x ∧ b[k]? = some y ∧ value x < value y)

/-- The same order with letters folded to upper case (the order MS-CFB 2.6.4 prescribes), for ASCII. -/
def asciiUpper (u : Nat) : Int := if 97 ≤ u ∧ u ≤ 122 then (u : Int) - 32 else u

end Fileid.Spec
