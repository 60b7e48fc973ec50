import Verif.Model.Dispatch
import Verif.Model.Zip
import Verif.Model.Oless
import Verif.Model.Asf

/-!
# The whole program: `fileid.cpp` with all detail extractors
-/

namespace Fileid

open Common Magic

/-- The objects the program reports: those whose export functions are total, and the results for compound and
WordPerfect files, whose export functions can fail. -/
inductive Found
  | item (i : Item)
  | ole (r : Oless.Result)

/-- What the program depends on beyond the file: the platform, the libraries' number formats and messages (`ole`), the
depth of the call stack (`depth`), the memory behind a read buffer (`room`) and step budget of the ASF parser (`fuel`),
and what ziplib makes of a file (`zip`; ziplib is not modelled, and a null archive is dereferenced). -/
structure World where
  abi : Abi
  ole : Oless.Env
  depth : Nat
  room : Nat
  fuel : Nat
  zip : File → Res Zip.Archive

/-- pole.h:923-936 `DirTree::clear`: only the root is left. -/
def clearedTree : Pole.DirTree :=
  [{ valid := true, name := Vba.wide b!"Root Entry", dir := true, start := Pole.End, prev := Pole.End, next := Pole.End, child := Pole.End }]

/-- pole.h:1477-1497, a `Storage` that was made but not opened. The file is not read, so its content is left out. -/
def unopened : Pole.StorageIO :=
  { file := [], header := {}, bbat := { blockSize := 512 }, sbat := { blockSize := 64 }, dirtree := clearedTree, sb_blocks := [] }

/-- `VbaExtensionInfo` and what its export functions return (vbahelper.hpp:140-216; `ToText` and `ToCsv` do not override
those of the base class, see `Oless.Result.toText`). -/
def vbaItem (v : Vba.VbaInfo) : Item := ⟨v.base, v.toJson, v.toXml, v.base.toText, v.base.toCsv⟩

/-- ziphelper.hpp:424-437, a binary file of an Office Open XML package: its content is written to a temporary file, a
`Storage` is made for it, which is never opened, and analysed; an exception becomes a result. -/
def zipAnalyze (w : World) (_content : Bytes) : Res Item :=
  match Vba.Analyze w.abi unopened (Vba.wide b!"/") with
  | .ok v => .ok (vbaItem v)
  | .throw x =>
    let v : Vba.VbaInfo := {}
    .ok (vbaItem { v with ProjectName := w.ole.sliced x, base := { v.base with SubType := b!"ERROR" } })
  | .ub u => .ub u
  | .fuel => .fuel

/-- ziphelper.hpp:463-526 `Detailer` in a new process. -/
def zipDetailer (w : World) (file : File) : Res (List Item) := do
  let a ← w.zip file
  let r ← Zip.Detailer (zipAnalyze w) [] a
  .ok r.1

/-- document/wp/wordperfect.hpp:131-142 `Detailer`. `StreamDetailer` (124-129) keeps a pointer into its parameter, which
is gone when it returns. -/
def wpDetailer : List Oless.Result := [.wp { Extension := b!"wp", VersionName := b!"Word Perfect File" }]

/-- magic.h:163-315, the function each `ExtraDataFunc` is. -/
def extract (w : World) : Detailer → File → Bytes → Res (List Found)
  | .zip_Detailer, file, _ => do let l ← zipDetailer w file; .ok (l.map .item)
  | .oless_Detailer, file, _ => do let l ← (Oless.Detailer w.abi w.ole [] w.depth file).2; .ok (l.map .ole)
  | .document_wp_Detailer, _, _ => .ok (wpDetailer.map .ole)
  | .media_asf_Detailer, file, buffer => do let l ← Asf.Detailer w.abi w.room w.fuel file buffer; .ok (l.map .item)
  | d, file, buffer => do let l ← dispatch w.abi (fun _ _ _ => .ok []) d file buffer; .ok (l.map .item)

/-- fileid.cpp:54-75, the loop over the signature list, for any kind of result. -/
def identifyLoop {α : Type} (inj : Item → α) (E : Detailer → File → Bytes → Res (List α)) (file : File) (buffer : Bytes) :
    List MagicInfo → List α → Res (List α)
  | [], ans => .ok ans
  | mi :: rest, ans => do
    let hit ← checkMagic buffer (u32 buffer.length) mi.magic mi.size mi.offset
    if hit then
      match mi.extraFunc with
      | some d => do
        let list2 ← E d file buffer
        identifyLoop inj E file buffer rest (ans ++ list2)
      | none =>
        let ei : ExtInfo :=
          { Extension := mi.Extension, Name := mi.Name,
            SubType := if mi.Version.length > 0 then mi.Version else [] }
        identifyLoop inj E file buffer rest (ans ++ [inj (Item.generic ei)])
    else identifyLoop inj E file buffer rest ans

/-- fileid.cpp:48-77 `guessExtension` in a new process. -/
def identify (w : World) (file : File) : Res (List Found) :=
  let buffer := readFile file (getMinimumBufferSize table)
  if buffer.length > 0 then identifyLoop .item (extract w) file buffer table [] else .ok []

/-- One export function. -/
def Found.print (w : World) : Found → OutputFormat → Res Bytes
  | .item i, .json => .ok i.json
  | .item i, .xml => .ok i.xml
  | .item i, .text => .ok i.text
  | .item i, .csv => .ok i.csv
  | .ole r, f => r.print w.abi w.ole f

/-- fileid.cpp:95-113 `main`: the bytes written to standard output. Only the export function of the format is called. -/
def program (w : World) (fs : Bytes → File) (argv : List Bytes) : Res Bytes :=
  match argv with
  | [] => .ok (b!"fileid {file} [format]\n")
  | file :: rest => do
    let outFormat := match rest with
      | [] => OutputFormat.text
      | f :: _ => ParseOutputFormat f
    let extensions ← identify w (fs file)
    let extensions := if extensions.length = 0 then extensions ++ [.item (UnknownExtension (fs file))] else extensions
    let texts ← Oless.mapRes (fun x => x.print w outFormat) extensions
    .ok (Output outFormat file b!"extensions" (texts.map fun t => ⟨{}, t, t, t, t⟩))

end Fileid
