import Verif.Spec.Report
import Verif.Model.ExcelEngine

/-!
# What the JSON and XML reports about a workbook contain
-/

namespace Fileid.Spec.Report

open Common Excel

/-- A text of the file in JSON; a zero byte ends it. -/
def shown (s : Bytes) : JVal := .str (codes (s.takeWhile (· ≠ 0)))

/-- The members of a record besides its type and length: the names, texts and numbers the record holds. -/
def Details (view : View) (ms : List (Bytes × JVal)) : Prop :=
  match view with
  | .plain => ms = []
  | .bof => (∃ n, (b!"Version", .nat n) ∈ ms) ∧ ∃ n, (b!"DocumentType", .nat n) ∈ ms
  | .formula _ _ _ _ _ formula => (b!"FormulaString", shown formula) ∈ ms
  | .lbl name => (b!"name", shown name) ∈ ms
  | .winProtect n => ms = [(b!"fLockWn", .nat n)]
  | .externName addin => ∀ s, addin = some s → (b!"addinUdf", .text s) ∈ ms
  | .filePass p =>
    (p.wEncryptionType = 0 → ms =
      [(b!"EncryptionType", .text b!"XOR"), (b!"XorKey", .nat p.key), (b!"XorVerification", .nat p.verification)]) ∧
    (p.wEncryptionType = 1 → ∃ more, ms = (b!"EncryptionType", .text b!"RC4") ::
      (b!"RC4Version", .obj [(b!"Major", .nat p.vMajor), (b!"Minor", .nat p.vMinor)]) :: more) ∧
    (1 < p.wEncryptionType → ms = [(b!"EncryptionType", .nat p.wEncryptionType)])
  | .codePage n => ∃ name, ms = [(b!"CodePage", .nat n), (b!"CodePageStr", name)]
  | .writeAccess s => ms = [(b!"username", .text s)]
  | .boundSheet8 name => ∃ state type, ms = [(b!"Name", shown name), (b!"State", .nat state), (b!"SheetType", .nat type)]
  | .boundSheet5 _ => ms = []
  | .country a b => ∃ n m, ms = [(b!"WorkbookLocale", .obj [(b!"Code", .nat a), (b!"Name", n)]),
      (b!"OSLocale", .obj [(b!"Code", .nat b), (b!"Name", m)])]
  | .fnGroupName s => ms = [(b!"Name", .text s)]
  | .builtInFnGroupCount n => ms = [(b!"Count", .nat n)]
  | .mulBlank rw _ _ l => ∃ a b, ms = (b!"rw", .nat rw) :: (b!"colFirst", a) :: (b!"colLast", b) ::
      listed b!"rgixfe" (l.map .nat)
  | .sst total unique l => ms = (b!"cstTotal", .bare (decInt total)) :: (b!"cstUnique", .bare (decInt unique)) ::
      listed b!"strings" (l.map shown)
  | .labelSst i v => ∃ cell, ms = (b!"Cell", cell) :: (b!"isst", .nat i) ::
      (match v with | some s => [(b!"Value", shown s)] | none => [])
  | .supBook ctab cch path l => ms = (b!"ctab", .nat ctab) :: (b!"cch", .nat cch) ::
      ((match path with | some s => [(b!"virtPath", .text s)] | none => []) ++ listed b!"rgst" (l.map .text))
  | .codeName s => ms = [(b!"CodeName", .text s)]
  | .blank => ∃ cell, ms = [(b!"Cell", cell)]
  | .boolErr b f => ∃ cell v, ms = [(b!"Cell", cell), (b!"fError", .nat f), (b!"bBoolErr", .nat b), (b!"Value", v)]
  | .string s => ms = [(b!"String", shown s)]
  | .row rw colMic colMac miyRw _ _ _ _ _ _ => ∃ more, ms = (b!"rw", .nat rw) :: (b!"colMic", .nat colMic) ::
      (b!"colMac", .nat colMac) :: (b!"miyRw", .nat miyRw) :: more
  | .rk rw col ixfe => ∃ more, ms = (b!"rw", .nat rw) :: (b!"col", .nat col) :: (b!"ixfe", .nat ixfe) :: more
  | .areaFormat _ _ fls _ _ fore back =>
    (b!"fls", .nat fls) ∈ ms ∧ (b!"ivcFore", .nat fore) ∈ ms ∧ (b!"ivcBack", .nat back) ∈ ms

/-- A record: the name of its type, its length, and what it holds. -/
def RecordShown (r : Rec) (v : JVal) : Prop :=
  ∃ ms, v = .obj ((b!"Type", .text (GetRecordTypeStr r.type)) :: (b!"Length", .nat r.length) :: ms) ∧ Details r.view ms

/-- The records of a part of the workbook, given by their positions among all records. -/
def RecordsShown (master : List Rec) (ids : List Nat) (vs : List JVal) : Prop :=
  Pointwise (fun i v => ∃ r, master[i]? = some r ∧ RecordShown r v) ids vs

/-- A sheet: name, kind, visibility, position and records. -/
def SheetShown (master : List Rec) (s : Sheet) (v : JVal) : Prop :=
  ∃ rs, RecordsShown master s.children rs ∧
    v = .obj ([(b!"Name", shown s.Name), (b!"Type", .text (GetSheetTypeStr s.kind)),
      (b!"Visiblity", .text (GetVisibilityStr s.Visiblity)), (b!"Offset", .nat s.Offset)] ++ listed b!"Records" rs)

/-- A workbook: the records of the globals substream, the sheets, and the error that ended the reading, if any. -/
def WorkbookShown (x : ExcelInfo) (ms : List (Bytes × JVal)) : Prop :=
  ∃ rs ss, RecordsShown x.eng.master x.eng.global rs ∧ Pointwise (SheetShown x.eng.master) x.eng.sheets ss ∧
    ms = (b!"globals", .obj [(b!"Records", .arr rs)]) :: (listed b!"sheets" ss ++ given b!"ERROR" x.error)

/-- The texts of the record that are written as they are have only characters that stand for themselves. -/
def ClearRecord (r : Rec) : Prop :=
  match r.view with
  | .externName (some s) => Clear s
  | .writeAccess s => Clear s
  | .fnGroupName s => Clear s
  | .codeName s => Clear s
  | .supBook _ _ path l => (∀ s, path = some s → Clear s) ∧ ∀ s ∈ l, Clear s
  | _ => True

/-- The record has the text among those that are written as they are: the name of the user or of a function group, the
code name of a sheet, the path of another workbook. -/
def RawText (r : Rec) (s : Bytes) : Prop :=
  match r.view with
  | .writeAccess u => u = s
  | .fnGroupName u => u = s
  | .codeName u => u = s
  | .supBook _ _ path _ => path = some s
  | _ => False

/-- A text that a reader rejects when it stands between quotes: it has a control character and neither quotes nor
backslashes, or it has a quote after which something follows that ends no value. -/
inductive Breaks : Bytes → Prop
  | control {s : Bytes} {c : UInt8} (hc : c ∈ s) (h : c < 32) (hq : 34 ∉ s) (hb : 92 ∉ s) : Breaks s
  | quote {a b : Bytes} {c : UInt8} (ha : Clear a) (hc : isDelim c = false) : Breaks (a ++ 34 :: c :: b)

/-- What is assumed of the library: the real numbers of RK records (below 2 in absolute value, as only 30 bits are
used) are written as JSON numbers. -/
def NumberFmt (fmt : Fmt) : Prop :=
  ∀ n, n < 2 ^ 30 → jsonNumber (fmt.f32 n) = true ∧ ∀ c ∈ fmt.f32 n, isDelim c = false

/-! ## XML -/

/-- A text of the file in XML (`<` and `>` are swapped, C12). -/
def TextX (key s : Bytes) (v : XVal) : Prop :=
  ∃ cs, v = .elem key [.chars cs] ∧ ((∀ c ∈ s, c ≠ 60 ∧ c ≠ 62) → cs = codes s)

def numX (key : Bytes) (n : Nat) : XVal := .leaf key (dec n)

/-- The elements of a record besides its type and length. The text of a String record stands in a CDATA section with
its special characters escaped, so a reader gets the escaped text. -/
def DetailsX (view : View) (vs : List XVal) : Prop :=
  match view with
  | .plain => vs = []
  | .bof => (∃ n, numX b!"Version" n ∈ vs) ∧ ∃ n, numX b!"DocumentType" n ∈ vs
  | .formula _ _ _ _ _ formula => ∃ v ∈ vs, TextX b!"FormulaString" formula v
  | .lbl name => ∃ v ∈ vs, TextX b!"name" name v
  | .winProtect n => vs = [numX b!"fLockWn" n]
  | .externName addin => ∀ s, addin = some s → .leaf b!"addinUdf" s ∈ vs
  | .filePass p =>
    (p.wEncryptionType = 0 → vs =
      [.leaf b!"EncryptionType" b!"XOR", numX b!"XorKey" p.key, numX b!"XorVerification" p.verification]) ∧
    (p.wEncryptionType = 1 → ∃ more, vs = .leaf b!"EncryptionType" b!"RC4" ::
      .elem b!"RC4Version" [numX b!"Major" p.vMajor, numX b!"Minor" p.vMinor] :: more) ∧
    (1 < p.wEncryptionType → vs = [numX b!"EncryptionType" p.wEncryptionType])
  | .codePage n => ∃ name, vs = [numX b!"CodePage" n, name]
  | .writeAccess s => vs = [.leaf b!"username" s]
  | .boundSheet8 name => ∃ v state type, TextX b!"Name" name v ∧ vs = [v, numX b!"State" state, numX b!"SheetType" type]
  | .boundSheet5 _ => vs = []
  | .country a b => ∃ n m, vs = [.elem b!"WorkbookLocale" [numX b!"Code" a, n], .elem b!"OSLocale" [numX b!"Code" b, m]]
  | .fnGroupName s => vs = [.leaf b!"Name" s]
  | .builtInFnGroupCount n => vs = [numX b!"Count" n]
  | .mulBlank rw _ _ l => ∃ a b, vs = numX b!"rw" rw :: a :: b :: filled b!"rgixfe" (l.map (numX b!"ixfe"))
  | .sst total unique l => ∃ ss, Pointwise (TextX b!"string") l ss ∧
      vs = .leaf b!"cstTotal" (decInt total) :: .leaf b!"cstUnique" (decInt unique) :: filled b!"strings" ss
  | .labelSst i v => ∃ cell more, vs = cell :: numX b!"isst" i :: more ∧ ∀ s, v = some s → ∃ x, more = [x] ∧ TextX b!"Value" s x
  | .supBook ctab cch path l => vs = numX b!"ctab" ctab :: numX b!"cch" cch ::
      ((match path with | some s => [.leaf b!"virtPath" s] | none => []) ++ filled b!"rgst" (l.map (.leaf b!"string")))
  | .codeName s => vs = [.leaf b!"CodeName" s]
  | .blank => ∃ cell, vs = [cell]
  | .boolErr b f => ∃ cell v, vs = [cell, numX b!"fError" f, numX b!"bBoolErr" b, v]
  | .string s => vs = [.leaf b!"String" (XmlEscape s)]
  | .row rw colMic colMac miyRw _ _ _ _ _ _ => ∃ more, vs = numX b!"rw" rw :: numX b!"colMic" colMic ::
      numX b!"colMac" colMac :: numX b!"miyRw" miyRw :: more
  | .rk rw col ixfe => ∃ more, vs = numX b!"rw" rw :: numX b!"col" col :: numX b!"ixfe" ixfe :: more
  | .areaFormat _ _ fls _ _ fore back => numX b!"fls" fls ∈ vs ∧ numX b!"ivcFore" fore ∈ vs ∧ numX b!"ivcBack" back ∈ vs

def RecordShownX (r : Rec) (v : XVal) : Prop :=
  ∃ vs, v = .elem b!"Record" (.leaf b!"Type" (GetRecordTypeStr r.type) :: numX b!"Length" r.length :: vs) ∧ DetailsX r.view vs

def RecordsShownX (master : List Rec) (ids : List Nat) (vs : List XVal) : Prop :=
  Pointwise (fun i v => ∃ r, master[i]? = some r ∧ RecordShownX r v) ids vs

def SheetShownX (master : List Rec) (s : Sheet) (v : XVal) : Prop :=
  ∃ name rs, TextX b!"Name" s.Name name ∧ RecordsShownX master s.children rs ∧
    v = .elem b!"Sheet" ([name, .leaf b!"Type" (GetSheetTypeStr s.kind), .leaf b!"Visiblity" (GetVisibilityStr s.Visiblity),
      numX b!"Offset" s.Offset] ++ filled b!"Records" rs)

def WorkbookShownX (x : ExcelInfo) (vs : List XVal) : Prop :=
  ∃ rs ss, RecordsShownX x.eng.master x.eng.global rs ∧ Pointwise (SheetShownX x.eng.master) x.eng.sheets ss ∧
    vs = .elem b!"globals" [.elem b!"Records" rs] :: (filled b!"sheets" ss ++ givenX b!"ERROR" x.error)

/-- A text of characters that may stand in an XML document. -/
def LegalText (s : Bytes) : Prop := ∀ c ∈ s, XmlUnit c.toNat

/-- The texts of the record that are escaped have only characters that may stand in XML. -/
def LegalRecord (r : Rec) : Prop :=
  match r.view with
  | .formula _ _ _ _ _ formula => LegalText formula
  | .lbl name => LegalText name
  | .boundSheet8 name => LegalText name
  | .sst _ _ l => ∀ s ∈ l, LegalText s
  | .labelSst _ v => ∀ s, v = some s → LegalText s
  | .filePass p => ∀ u ∈ p.cspName, XmlUnit u ∨ u = 0
  | _ => True

/-- A text with a character that may not stand in XML, behind characters that stand for themselves. -/
def BreaksX (s : Bytes) : Prop := ∃ a c b, s = a ++ c :: b ∧ Clear a ∧ ¬ XmlUnit c.toNat

/-- What is assumed of the library: real numbers are written with characters that stand for themselves. -/
def ClearFmt (fmt : Fmt) : Prop := (∀ n, Clear (fmt.f32 n)) ∧ ∀ n, Clear (fmt.f64 n)

end Fileid.Spec.Report
