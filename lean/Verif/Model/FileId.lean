import Verif.Model.MagicTable

/-!
# Model of `fileid/fileid.cpp` and `fileid/unknown.hpp`
-/

namespace Fileid

open Common Magic

/-- fileid.cpp:22-33 `roundUpPowerOfTwo` on 32-bit unsigned values. -/
def roundUpPowerOfTwo (x : Nat) : Nat :=
  let v := sub32 x 1
  let v := v ||| (v >>> 1)
  let v := v ||| (v >>> 2)
  let v := v ||| (v >>> 4)
  let v := v ||| (v >>> 8)
  let v := v ||| (v >>> 16)
  u32 (v + 1)

/-- fileid.cpp:35-46 `getMinimumBufferSize` over the current global list; `STD_BUFFER_SIZE` is 512
(common.hpp:29). -/
def getMinimumBufferSize (list : List MagicInfo) : Nat :=
  let ans := list.foldl (fun ans mi =>
    let size := u32 (mi.size + mi.offset)
    if size > ans then size else ans) 512
  roundUpPowerOfTwo ans

/-- The detail extractors, as a parameter of `guessExtension`: what the extractor returns for a file and
the buffer read from it. -/
abbrev Dispatch := Detailer → File → Bytes → Res (List Item)

/-- fileid.cpp:54-75, the loop over the signature list. `ans` accumulates the results. -/
def guessLoop (D : Dispatch) (file : File) (buffer : Bytes) :
    List MagicInfo → List Item → Res (List Item)
  | [], ans => .ok ans
  | mi :: rest, ans => do
    let hit ← checkMagic buffer (u32 buffer.length) mi.magic mi.size mi.offset
    if hit then
      match mi.extraFunc with
      | some d => do
        let list2 ← D d file buffer
        guessLoop D file buffer rest (ans ++ list2)
      | none =>
        let ei : ExtInfo :=
          { Extension := mi.Extension, Name := mi.Name,
            SubType := if mi.Version.length > 0 then mi.Version else [] }
        guessLoop D file buffer rest (ans ++ [Item.generic ei])
    else guessLoop D file buffer rest ans

/-- fileid.cpp:48-77 `guessExtension`. The first argument is the global `magic::list` before the call;
`magic::initList()` (magic.h:163-315) appends the whole table to it on every call. The new global list is
returned with the result. -/
def guessExtension (D : Dispatch) (list : List MagicInfo) (file : File) :
    List MagicInfo × Res (List Item) :=
  let list := list ++ table
  let buffer := readFile file (getMinimumBufferSize list)
  (list, if buffer.length > 0 then guessLoop D file buffer list [] else .ok [])

/-- unknown.hpp:20-29 `UnknownExtensionInfo::ToJson`. -/
def unknownJson (e : ExtInfo) (sample : Bytes) : Bytes :=
  b!"{" ++ b!"\"extension\" : \"" ++ e.Extension ++ b!"\"" ++
  b!", \"name\" : \"" ++ e.VersionName ++ b!"\"" ++
  b!", \"sampleStr\":\"" ++ JsonEscape sample ++ b!"\"" ++
  b!", \"sampleHex\":\"" ++ bin2hex sample ++ b!"\"" ++ b!"}"

/-- unknown.hpp:30-39 `UnknownExtensionInfo::ToXml`. -/
def unknownXml (e : ExtInfo) (sample : Bytes) : Bytes :=
  b!"<item>" ++ b!"<extension>" ++ e.Extension ++ b!"</extension>" ++
  b!"<name>" ++ e.VersionName ++ b!"</name>" ++
  b!"<sampleStr><![CDATA[" ++ XmlEscape sample ++ b!"]]></sampleStr>" ++
  b!"<sampleHex>" ++ bin2hex sample ++ b!"</sampleHex>" ++ b!"</item>"

/-- unknown.hpp:40-46 `UnknownExtensionInfo::ToText`. -/
def unknownText (e : ExtInfo) : Bytes :=
  e.Extension ++ b!"\t" ++ e.VersionName ++ b!"\t" ++ dec e.Version

/-- unknown.hpp:47-53 `UnknownExtensionInfo::ToCsv`. -/
def unknownCsv (e : ExtInfo) : Bytes :=
  e.Extension ++ b!"," ++ e.VersionName ++ b!"," ++ dec e.Version

/-- unknown.hpp:13-19 constructor of `UnknownExtensionInfo` (called with a non-empty buffer only). -/
def unknownItem (sample : Bytes) : Item :=
  let e : ExtInfo := { Extension := b!"unknown", VersionName := b!"Unknown File" }
  ⟨e, unknownJson e sample, unknownXml e sample, unknownText e, unknownCsv e⟩

/-- fileid.cpp:87-90, the item for an empty buffer. -/
def emptyItem : Item := Item.generic { Extension := b!"empty", Name := b!"Empty File" }

/-- fileid.cpp:79-93 `UnknownExtension`. -/
def UnknownExtension (file : File) : Item :=
  let buffer := readFile file 512
  if buffer.length > 0 then unknownItem buffer else emptyItem

/-- fileid.cpp:102-105, the items `main` reports for a file (first identification of the process). -/
def reportItems (D : Dispatch) (file : File) : Res (List Item) := do
  let extensions ← (guessExtension D [] file).2
  if extensions.length = 0 then .ok (extensions ++ [UnknownExtension file]) else .ok extensions

/-- fileid.cpp:95-113 `main`: the bytes written to standard output. `argv` is without the program name;
`fs` gives the content of each path. -/
def main (D : Dispatch) (fs : Bytes → File) (argv : List Bytes) : Res Bytes :=
  match argv with
  | [] => .ok (b!"fileid {file} [format]\n")
  | file :: rest => do
    let outFormat := match rest with
      | [] => OutputFormat.text
      | f :: _ => ParseOutputFormat f
    let extensions ← reportItems D (fs file)
    .ok (Output outFormat file b!"extensions" extensions)

end Fileid
