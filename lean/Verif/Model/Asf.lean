import Verif.Model.AsfTable
import Verif.Model.Excel

/-!
# ASF files (`fileid/media/asf/asf.hpp`)
-/

namespace Fileid.Asf

open Common

/-! ## Identifiers -/

/-- asf.hpp:149-215 `ASFTypeFromGuid`: the comparisons in their order. -/
def typeFromGuidLoop (guid : Bytes) : List (Bytes × ASFType) → Res ASFType
  | [] => .ok .Unknown
  | (g, t) :: rest => do
    if ← VerifyGuids guid g then .ok t else typeFromGuidLoop guid rest
def ASFTypeFromGuid (guid : Bytes) : Res ASFType := typeFromGuidLoop guid guidTable

/-- asf.hpp:218-282 `ASFTypeToString`. -/
def typeToStringLoop (type : ASFType) : List (ASFType × Bytes) → Bytes
  | [] => b!"Unknown"
  | (t, s) :: rest => if type = t then s else typeToStringLoop type rest
def ASFTypeToString (type : ASFType) : Bytes := typeToStringLoop type nameTable

/-! ## Objects -/

/-- common.hpp:222-227 `readBuffer` with its `reserve`: sizes from 2^63 on throw `length_error`, sizes the
allocator refuses throw `bad_alloc`. `room` is the size of the largest block the allocator hands out. -/
def readBuffer (room : Nat) (buffer : Bytes) (off size : Nat) : Res Bytes :=
  if size ≥ 2 ^ 63 then .throw .lengthError
  else if size > room then .throw .badAlloc
  else rdRange buffer off size

/-- asf.hpp:351-363, the members of `file_properties`. -/
structure FileProps where
  file_id : Bytes
  file_size : Nat
  creation : Nat
  dp_count : Nat
  play_duration : Nat
  send_duration : Nat
  preroll : Nat
  flags : Nat
  min_dp_size : Nat
  max_dp_size : Nat
  max_bitrate : Nat
  deriving DecidableEq, Repr

/-- asf.hpp:365-395 the constructor of `file_properties`. -/
def FileProps.new (abi : Abi) (data : Bytes) : Res FileProps := do
  let max := data.length
  let file_id ← rdRange data 0 16
  let file_size ← ReadULongLong data max 16
  let creation ← ReadULongLong data max 24
  let dp_count ← ReadULongLong data max 32
  let play_duration ← ReadULongLong data max 40
  let send_duration ← ReadULongLong data max 48
  let preroll ← ReadULongLong data max 56
  let flags ← ReadULong abi data max 64
  let min_dp_size ← ReadULong abi data max 68
  let max_dp_size ← ReadULong abi data max 72
  let max_bitrate ← ReadULong abi data max 76
  .ok { file_id, file_size, creation, dp_count, play_duration, send_duration, preroll, flags, min_dp_size,
        max_dp_size, max_bitrate }

/-- asf.hpp:434-447, the members of `stream_properties_object` that are printed. -/
structure StreamProps where
  streamType : ASFType
  errCorrectionType : ASFType
  time_offset : Nat
  type_specific_data_length : Nat
  error_correction_data_length : Nat
  flags : Nat
  reserved : Nat
  type_specific_data : Bytes
  error_correction_data : Bytes
  deriving DecidableEq, Repr

/-- asf.hpp:449-484 the constructor of `stream_properties_object`. `index` is an `unsigned int`. -/
def StreamProps.new (abi : Abi) (room : Nat) (data : Bytes) : Res StreamProps := do
  let max := data.length
  let stream_type ← rdRange data 0 16
  let streamType ← ASFTypeFromGuid stream_type
  let error_correction_type ← rdRange data 16 16
  let errCorrectionType ← ASFTypeFromGuid error_correction_type
  let time_offset ← ReadULongLong data max 32
  let type_specific_data_length ← ReadULong abi data max 40
  let error_correction_data_length ← ReadULong abi data max 44
  let flags ← ReadUShort data max 48
  let reserved ← ReadULong abi data max 50
  let type_specific_data ← readBuffer room data 54 type_specific_data_length
  let index := u32 (54 + type_specific_data_length)
  let error_correction_data ← readBuffer room data index error_correction_data_length
  .ok { streamType, errCorrectionType, time_offset, type_specific_data_length, error_correction_data_length,
        flags, reserved, type_specific_data, error_correction_data }

/-- asf.hpp:606-617, the strings of `content_description_object`. -/
structure ContentDescription where
  title : Bytes
  author : Bytes
  copyright : Bytes
  description : Bytes
  rating : Bytes
  deriving DecidableEq, Repr

/-- `std::wstring(reinterpret_cast<wchar_t const*>(buffer + index), n)`, `convert` and `erasenulls`. -/
def wideText (abi : Abi) (buffer : Bytes) (index n : Nat) : Res Bytes := do
  let s ← Excel.wideString abi buffer index n
  .ok (erasenulls s)

/-- asf.hpp:620-663 the constructor of `content_description_object`. -/
def ContentDescription.new (abi : Abi) (data : Bytes) : Res ContentDescription := do
  let max := data.length
  let title_length ← ReadUShort data max 0
  let author_length ← ReadUShort data max 2
  let copyright_length ← ReadUShort data max 4
  let description_length ← ReadUShort data max 6
  let rating_length ← ReadUShort data max 8
  let title ← wideText abi data 10 (title_length / 2)
  let index := u32 (10 + title_length)
  let author ← wideText abi data index (author_length / 2)
  let index := u32 (index + author_length)
  let copyright ← wideText abi data index (copyright_length / 2)
  let index := u32 (index + copyright_length)
  let description ← wideText abi data index (description_length / 2)
  let index := u32 (index + description_length)
  let rating ← wideText abi data index (rating_length / 2)
  .ok { title, author, copyright, description, rating }

/-- asf.hpp:691-695 `content_descriptor`. -/
structure ContentDescriptor where
  totalSize : Nat
  Name : Bytes
  Value : Bytes
  deriving DecidableEq, Repr

/-- asf.hpp:715-738, the text of a value by its type. -/
def descriptorValue (abi : Abi) (valueDataType : Nat) (valueData : Bytes) : Res Bytes :=
  if valueDataType = 0 then wideText abi valueData 0 (valueData.length / 2)
  else if valueDataType = 1 then .ok (bin2hex valueData)
  else if valueDataType = 2 then do
    let b ← rd valueData 0
    .ok (if b ≠ 0 then b!"true" else b!"false")
  else if valueDataType = 3 then do
    let n ← ReadUInt valueData valueData.length 0
    .ok (dec n)
  else if valueDataType = 4 then do
    let n ← ReadULongLong valueData valueData.length 0
    .ok (dec n)
  else if valueDataType = 5 then do
    let n ← ReadUShort valueData valueData.length 0
    .ok (dec n)
  else .ok []

/-- asf.hpp:696-741 the constructor of `content_descriptor`. -/
def ContentDescriptor.new (abi : Abi) (room : Nat) (buffer : Bytes) (max offset : Nat) : Res ContentDescriptor := do
  let nameLength ← ReadUShort buffer max offset
  let index := u32 (offset + 2)
  let Name ← wideText abi buffer index (nameLength / 2)
  let index := u32 (index + nameLength)
  let valueDataType ← ReadUShort buffer max index
  let index := u32 (index + 2)
  let valueDataLength ← ReadUShort buffer max index
  let index := u32 (index + 2)
  let valueData ← readBuffer room buffer index valueDataLength
  let index := u32 (index + valueDataLength)
  let Value ← descriptorValue abi valueDataType valueData
  .ok { totalSize := sub32 index offset, Name, Value }

/-- asf.hpp:759-764, the loop of `extended_content_description_object`; the first argument counts the
remaining iterations. -/
def descriptorLoop (abi : Abi) (room : Nat) (buffer : Bytes) (max : Nat) :
    Nat → Nat → List ContentDescriptor → Res (List ContentDescriptor)
  | 0, _, content => .ok content
  | n + 1, index, content => do
    let c ← ContentDescriptor.new abi room buffer max index
    descriptorLoop abi room buffer max n (u32 (index + c.totalSize)) (content ++ [c])

/-- asf.hpp:802-809 `codec_entry`. -/
structure CodecEntry where
  totalSize : Nat
  type : Nat
  Name : Bytes
  Description : Bytes
  info : Bytes
  deriving DecidableEq, Repr

/-- asf.hpp:811-839 the constructor of `codec_entry`. -/
def CodecEntry.new (abi : Abi) (room : Nat) (buffer : Bytes) (max offset : Nat) : Res CodecEntry := do
  let type ← ReadUShort buffer max offset
  let index := u32 (offset + 2)
  let nameLength ← ReadUShort buffer max index
  let index := u32 (index + 2)
  let Name ← wideText abi buffer index nameLength
  let index := u32 (index + nameLength * 2)
  let descLength ← ReadUShort buffer max index
  let index := u32 (index + 2)
  let Description ← wideText abi buffer index descLength
  let index := u32 (index + descLength * 2)
  let infoLength ← ReadUShort buffer max index
  let index := u32 (index + 2)
  let info ← readBuffer room buffer index infoLength
  let index := u32 (index + infoLength)
  .ok { totalSize := sub32 index offset, type, Name, Description, info }

/-- asf.hpp:841-846 `CodecTypeStr`. -/
def CodecEntry.typeStr (c : CodecEntry) : Bytes :=
  if c.type = 1 then b!"Video"
  else if c.type = 2 then b!"Audio"
  else if c.type = 0xFFFF then b!"Unknown"
  else b!"Undefined"

/-- asf.hpp:871-876, the loop of `codec_list_object`; the first argument counts the remaining iterations.
(Simplification: the counter is an `unsigned int` and would wrap for a count of 2^32 or more; a list that
long needs more bytes than an `unsigned int` can address, so a read fails first.) -/
def codecLoop (abi : Abi) (room : Nat) (buffer : Bytes) (max : Nat) :
    Nat → Nat → List CodecEntry → Res (List CodecEntry)
  | 0, _, codecs => .ok codecs
  | n + 1, index, codecs => do
    let c ← CodecEntry.new abi room buffer max index
    codecLoop abi room buffer max n (u32 (index + c.totalSize)) (codecs ++ [c])

/-- asf.hpp:284-922, an object of one of the classes derived from `asf_object` with the members that are used
later. -/
inductive Obj
  | unknown (type : ASFType) (data : Bytes)
  /-- the base class's `data` stays empty -/
  | header (size number : Nat) (reserved1 reserved2 : UInt8)
  | fileProps (data : Bytes) (p : FileProps)
  | streamProps (data : Bytes) (p : StreamProps)
  | headerExt (data : Bytes) (clockType : ASFType) (reserved_field_2 size : Nat) (extData : Bytes)
      (children : List Obj)
  | contentDesc (data : Bytes) (p : ContentDescription)
  | extContent (data : Bytes) (count : Nat) (content : List ContentDescriptor)
  | codecList (data : Bytes) (codec_id : ASFType) (count : Nat) (codecs : List CodecEntry)
  deriving Repr

/-- The member `type` as the constructors assign it; asf.hpp:621 assigns the type of another class. -/
def Obj.type : Obj → ASFType
  | .unknown t _ => t
  | .header .. => .ASF_Header_Object
  | .fileProps .. => .ASF_File_Properties_Object
  | .streamProps .. => .ASF_Stream_Properties_Object
  | .headerExt .. => .ASF_Header_Extension_Object
  | .contentDesc .. => .ASF_Header_Extension_Object
  | .extContent .. => .ASF_Extended_Content_Description_Object
  | .codecList .. => .ASF_Codec_List_Object

/-- The member `data`. -/
def Obj.data : Obj → Bytes
  | .unknown _ d => d
  | .header .. => []
  | .fileProps d _ => d
  | .streamProps d _ => d
  | .headerExt d .. => d
  | .contentDesc d _ => d
  | .extContent d .. => d
  | .codecList d .. => d

/-- asf.hpp:322-328 the constructor of `asf_header`: `data[4]` and `data[5]` are not checked. -/
def newHeader (abi : Abi) (data : Bytes) (totalSize : Nat) : Res Obj := do
  let number ← ReadULong abi data data.length 0
  let reserved1 ← rd data 4
  let reserved2 ← rd data 5
  .ok (.header totalSize number reserved1 reserved2)

/-- asf.hpp:551-558, the loop over the objects inside a header extension: `index` stays where it is when
`Parse` returns a null pointer. -/
def extLoop (parse : Nat → Res (Option Obj)) (size : Nat) : Nat → Nat → List Obj → Res (List Obj)
  | 0, _, _ => .fuel
  | fuel + 1, index, children =>
    if index < size then do
      match ← parse index with
      | some obj => extLoop parse size fuel (u32 (index + 24 + obj.data.length)) (children ++ [obj])
      | none => extLoop parse size fuel index children
    else .ok children

/-- asf.hpp:528-559 the constructor of `header_extension_object`; `parse` is `Parse` on a buffer. -/
def newHeaderExt (abi : Abi) (room : Nat) (parse : Bytes → Nat → Nat → Res (Option Obj)) (fuel : Nat)
    (data : Bytes) : Res Obj := do
  let max := data.length
  let reserved_field_1 ← rdRange data 0 16
  let clockType ← ASFTypeFromGuid reserved_field_1
  let reserved_field_2 ← ReadUShort data max 16
  let size ← ReadULong abi data max 18
  let extData ← readBuffer room data 22 size
  let children ← extLoop (parse extData extData.length) size fuel 0 []
  .ok (.headerExt data clockType reserved_field_2 size extData children)

/-- asf.hpp:749-766 the constructor of `extended_content_description_object`. -/
def newExtContent (abi : Abi) (room : Nat) (data : Bytes) : Res Obj := do
  let count ← ReadUShort data data.length 0
  let content ← descriptorLoop abi room data data.length count 2 []
  .ok (.extContent data count content)

/-- asf.hpp:857-878 the constructor of `codec_list_object`. -/
def newCodecList (abi : Abi) (room : Nat) (data : Bytes) : Res Obj := do
  let reserved ← rdRange data 0 16
  let codec_id ← ASFTypeFromGuid reserved
  let count ← ReadULong abi data data.length 16
  let codecs ← codecLoop abi room data data.length count 20 []
  .ok (.codecList data codec_id count codecs)

/-- asf.hpp:955-980, the object of a type, with the stored size and the data; `parse` is `Parse`. -/
def constructAs (abi : Abi) (room : Nat) (parse : Bytes → Nat → Nat → Res (Option Obj)) (fuel : Nat)
    (type : ASFType) (size : Nat) (data : Bytes) : Res Obj :=
  match type with
  | .ASF_Header_Object => newHeader abi data size
  | .ASF_File_Properties_Object => do let p ← FileProps.new abi data; .ok (.fileProps data p)
  | .ASF_Stream_Properties_Object => do let p ← StreamProps.new abi room data; .ok (.streamProps data p)
  | .ASF_Header_Extension_Object => newHeaderExt abi room parse fuel data
  | .ASF_Content_Description_Object => do let p ← ContentDescription.new abi data; .ok (.contentDesc data p)
  | .ASF_Extended_Content_Description_Object => newExtContent abi room data
  | .ASF_Codec_List_Object => newCodecList abi room data
  | t => .ok (.unknown t data)

/-- asf.hpp:954-981, the object for an identifier. -/
def construct (abi : Abi) (room : Nat) (parse : Bytes → Nat → Nat → Res (Option Obj)) (fuel : Nat)
    (guid : Bytes) (size : Nat) (data : Bytes) : Res Obj := do
  let type ← ASFTypeFromGuid guid
  constructAs abi room parse fuel type size data

/-- asf.hpp:928-983 `Parse`. `index + 16` and `index + 8` are computed in `unsigned int`, `index + size - 24`
in `unsigned long long`. (Simplification: the sixteen bytes of the identifier are read as one range; the
indexes `i + index` wrap only in buffers of nearly 4 GiB.) -/
def Parse (abi : Abi) (room : Nat) : Nat → Bytes → Nat → Nat → Res (Option Obj)
  | 0, _, _, _ => .fuel
  | fuel + 1, buffer, max, offset =>
    if u32 (offset + 16) > max then .ok none
    else do
      let guid ← rdRange buffer offset 16
      let index := u32 (offset + 16)
      if u32 (index + 8) > max then .ok none
      else do
        let size ← ReadULongLong buffer max index
        let index := u32 (index + 8)
        if sub64 (u64 (index + size)) 24 > max then .ok none
        else do
          let data ← readBuffer room buffer index (sub64 size 24)
          let obj ← construct abi room (Parse abi room fuel) fuel guid size data
          .ok (some obj)

/-! ## Export -/

/-- Items separated by commas (asf.hpp:570-573 and the like). -/
def commas : List Bytes → Bytes
  | [] => []
  | [x] => x
  | x :: y :: rest => x ++ b!"," ++ commas (y :: rest)

/-- `mapM`, written out. -/
def mapRes (f : α → Res β) : List α → Res (List β)
  | [] => .ok []
  | x :: xs => do
    let y ← f x
    let ys ← mapRes f xs
    .ok (y :: ys)

/-- asf.hpp:301-302 and the like: the start of every object in JSON. -/
def jsonHead (t : ASFType) : Bytes := b!"{\"Type\":\"" ++ ASFTypeToString t ++ b!"\","
/-- asf.hpp:309-310 and the like: the start of every object in XML. -/
def xmlHead (t : ASFType) : Bytes := b!"<ASFObject><Type>" ++ ASFTypeToString t ++ b!"</Type>"

/-- asf.hpp:400-410 -/
def FileProps.json (p : FileProps) : Bytes :=
  b!"\"file_id\":\"" ++ erasenulls (bin2hex p.file_id) ++
  b!"\",\"file_size\":" ++ dec p.file_size ++
  b!",\"creation\":" ++ dec p.creation ++
  b!",\"dp_count\":" ++ dec p.dp_count ++
  b!",\"play_duration\":" ++ dec p.play_duration ++
  b!",\"send_duration\":" ++ dec p.send_duration ++
  b!",\"preroll\":" ++ dec p.preroll ++
  b!",\"flags\":" ++ dec p.flags ++
  b!",\"min_dp_size\":" ++ dec p.min_dp_size ++
  b!",\"max_dp_size\":" ++ dec p.max_dp_size ++
  b!",\"max_bitrate\":" ++ dec p.max_bitrate ++ b!"}"
/-- asf.hpp:418-429 -/
def FileProps.xml (p : FileProps) : Bytes :=
  b!"<file_id>" ++ erasenulls (bin2hex p.file_id) ++ b!"</file_id>" ++
  b!"<file_size>" ++ dec p.file_size ++ b!"</file_size>" ++
  b!"<creation>" ++ dec p.creation ++ b!"</creation>" ++
  b!"<dp_count>" ++ dec p.dp_count ++ b!"</dp_count>" ++
  b!"<play_duration>" ++ dec p.play_duration ++ b!"</play_duration>" ++
  b!"<send_duration>" ++ dec p.send_duration ++ b!"</send_duration>" ++
  b!"<preroll>" ++ dec p.preroll ++ b!"</preroll>" ++
  b!"<flags>" ++ dec p.flags ++ b!"</flags>" ++
  b!"<min_dp_size>" ++ dec p.min_dp_size ++ b!"</min_dp_size>" ++
  b!"<max_dp_size>" ++ dec p.max_dp_size ++ b!"</max_dp_size>" ++
  b!"<max_bitrate>" ++ dec p.max_bitrate ++ b!"</max_bitrate></ASFObject>"

/-- asf.hpp:489-498 -/
def StreamProps.json (p : StreamProps) : Bytes :=
  b!"\"stream_type\":\"" ++ ASFTypeToString p.streamType ++
  b!"\",\"error_correction_type\":\"" ++ ASFTypeToString p.errCorrectionType ++
  b!"\",\"time_offset\":" ++ dec p.time_offset ++
  b!",\"type_specific_data_length\":" ++ dec p.type_specific_data_length ++
  b!",\"error_correction_data_length\":" ++ dec p.error_correction_data_length ++
  b!",\"flags\":" ++ dec p.flags ++
  b!",\"reserved\":" ++ dec p.reserved ++
  b!",\"type_specific_data\":\"" ++ bin2hex p.type_specific_data ++
  b!"\",\"error_correction_data\":\"" ++ bin2hex p.error_correction_data ++ b!"\"}"
/-- asf.hpp:505-514 -/
def StreamProps.xml (p : StreamProps) : Bytes :=
  b!"<stream_type>" ++ ASFTypeToString p.streamType ++ b!"</stream_type>" ++
  b!"<error_correction_type>" ++ ASFTypeToString p.errCorrectionType ++ b!"</error_correction_type>" ++
  b!"<time_offset>" ++ dec p.time_offset ++ b!"</time_offset>" ++
  b!"<type_specific_data_length>" ++ dec p.type_specific_data_length ++ b!"</type_specific_data_length>" ++
  b!"<error_correction_data_length>" ++ dec p.error_correction_data_length ++ b!"</error_correction_data_length>" ++
  b!"<flags>" ++ dec p.flags ++ b!"</flags>" ++
  b!"<reserved>" ++ dec p.reserved ++ b!"</reserved>" ++
  b!"<type_specific_data>" ++ bin2hex p.type_specific_data ++ b!"</type_specific_data>" ++
  b!"<error_correction_data>" ++ bin2hex p.error_correction_data ++ b!"</error_correction_data></ASFObject>"

/-- asf.hpp:668-673: the strings are written as they are. -/
def ContentDescription.json (p : ContentDescription) : Bytes :=
  b!"\"title\":\"" ++ p.title ++ b!"\",\"author\":\"" ++ p.author ++ b!"\",\"copyright\":\"" ++ p.copyright ++
  b!"\",\"description\":\"" ++ p.description ++ b!"\",\"rating\":\"" ++ p.rating ++ b!"\"}"
/-- asf.hpp:680-686 -/
def ContentDescription.xml (p : ContentDescription) : Bytes :=
  b!"<title>" ++ p.title ++ b!"</title><author>" ++ p.author ++ b!"</author><copyright>" ++ p.copyright ++
  b!"</copyright><description>" ++ p.description ++ b!"</description><rating>" ++ p.rating ++
  b!"</rating></ASFObject>"

/-- asf.hpp:776 -/
def ContentDescriptor.json (c : ContentDescriptor) : Res Bytes := do
  let n ← trim whitespace c.Name
  let v ← trim whitespace c.Value
  .ok (b!"\"" ++ n ++ b!"\":\"" ++ v ++ b!"\"")
/-- asf.hpp:792-793 -/
def ContentDescriptor.xml (c : ContentDescriptor) : Res Bytes := do
  let n ← trim whitespace c.Name
  let v ← trim whitespace c.Value
  .ok (b!"<Name>" ++ n ++ b!"</Name><Value>" ++ v ++ b!"</Value>")

/-- asf.hpp:889-894 -/
def CodecEntry.json (c : CodecEntry) : Bytes :=
  b!"{\"type\":\"" ++ c.typeStr ++ b!"\",\"name\":\"" ++ c.Name ++ b!"\",\"description\":\"" ++ c.Description ++
  b!"\",\"info\":\"" ++ bin2hex c.info ++ b!"\"}"
/-- asf.hpp:910-915 -/
def CodecEntry.xml (c : CodecEntry) : Bytes :=
  b!"<codec><type>" ++ c.typeStr ++ b!"</type><name>" ++ c.Name ++ b!"</name><description>" ++ c.Description ++
  b!"</description><info>" ++ bin2hex c.info ++ b!"</info></codec>"

mutual
/-- The `ToJson` of each class: asf.hpp:299-306, 329-338, 396-413, 485-500, 561-582, 664-675, 767-783 and
879-900. -/
def Obj.toJson : Obj → Res Bytes
  | .unknown t d => .ok (jsonHead t ++ b!"\"Data\":\"" ++ bin2hex d ++ b!"\"}")
  | .header _ number r1 r2 => .ok (jsonHead .ASF_Header_Object ++ b!"\"Number\":" ++ dec number ++
      b!",\"Alignment\":" ++ dec r1.toNat ++ b!",\"Architecture\":" ++ dec r2.toNat ++ b!"}")
  | .fileProps _ p => .ok (jsonHead .ASF_File_Properties_Object ++ p.json)
  | .streamProps _ p => .ok (jsonHead .ASF_Stream_Properties_Object ++ p.json)
  | .headerExt _ clock r2 size extData children => do
    let cs ← Obj.toJsons children
    .ok (jsonHead .ASF_Header_Extension_Object ++ b!"\"clock_type\":\"" ++ ASFTypeToString clock ++
      b!"\",\"clock_size\":\"" ++ dec r2 ++ b!"\",\"header_extension_data_size\":\"" ++ dec size ++ b!"\"," ++
      (if children.length > 0 then b!"\"children\": [" ++ commas cs ++ b!"]"
       else b!"\"header_extension_data\":\"" ++ bin2hex extData ++ b!"\"") ++ b!"}")
  | .contentDesc _ p => .ok (jsonHead .ASF_Header_Extension_Object ++ p.json)
  | .extContent _ count content => do
    let cs ← mapRes ContentDescriptor.json content
    .ok (jsonHead .ASF_Extended_Content_Description_Object ++ b!"\"content_descriptors_count\":" ++ dec count ++
      b!"," ++ (if content.length > 0 then b!"\"attributes\": {" ++ commas cs ++ b!"}" else []) ++ b!"}")
  | .codecList _ id count codecs => .ok (jsonHead .ASF_Codec_List_Object ++ b!"\"codec_id\":\"" ++
      ASFTypeToString id ++ b!"\",\"codec_entries_count\":\"" ++ dec count ++ b!"\"," ++
      (if codecs.length > 0 then b!"\"codecs\": [" ++ commas (codecs.map CodecEntry.json) ++ b!"]" else []) ++ b!"}")
def Obj.toJsons : List Obj → Res (List Bytes)
  | [] => .ok []
  | o :: os => do
    let j ← Obj.toJson o
    let js ← Obj.toJsons os
    .ok (j :: js)
end

mutual
/-- The `ToXml` of each class: asf.hpp:307-314, 339-348, 414-431, 501-516, 583-603, 676-688, 784-799 and
901-921. -/
def Obj.toXml : Obj → Res Bytes
  | .unknown t d => .ok (xmlHead t ++ b!"<Data>" ++ bin2hex d ++ b!"</Data></ASFObject>")
  | .header _ number r1 r2 => .ok (xmlHead .ASF_Header_Object ++ b!"<Number>" ++ dec number ++
      b!"</Number><Alignment>" ++ dec r1.toNat ++ b!"</Alignment><Architecture>" ++ dec r2.toNat ++
      b!"</Architecture></ASFObject>")
  | .fileProps _ p => .ok (xmlHead .ASF_File_Properties_Object ++ p.xml)
  | .streamProps _ p => .ok (xmlHead .ASF_Stream_Properties_Object ++ p.xml)
  | .headerExt _ clock r2 size extData children => do
    let cs ← Obj.toXmls children
    .ok (xmlHead .ASF_Header_Extension_Object ++ b!"<clock_type>" ++ ASFTypeToString clock ++
      b!"</clock_type><clock_size>" ++ dec r2 ++ b!"</clock_size><header_extension_data_size>" ++ dec size ++
      b!"</header_extension_data_size>" ++
      (if children.length > 0 then b!"<children>" ++ cs.flatten ++ b!"</children>"
       else b!"<header_extension_data>" ++ bin2hex extData ++ b!"</header_extension_data>") ++ b!"</ASFObject>")
  | .contentDesc _ p => .ok (xmlHead .ASF_Header_Extension_Object ++ p.xml)
  | .extContent _ count content => do
    let cs ← mapRes ContentDescriptor.xml content
    .ok (xmlHead .ASF_Extended_Content_Description_Object ++ b!"<content_descriptors_count>" ++ dec count ++
      b!"</content_descriptors_count>" ++
      (if content.length > 0 then b!"<attributes>" ++ cs.flatten ++ b!"</attributes>" else []) ++ b!"</ASFObject>")
  | .codecList _ id count codecs => .ok (xmlHead .ASF_Codec_List_Object ++ b!"<codec_id>" ++
      ASFTypeToString id ++ b!"</codec_id><codec_entries_count>" ++ dec count ++ b!"</codec_entries_count>" ++
      (if codecs.length > 0 then b!"<codecs>" ++ (codecs.map CodecEntry.xml).flatten ++ b!"</codecs>" else []) ++
      b!"</ASFObject>")
def Obj.toXmls : List Obj → Res (List Bytes)
  | [] => .ok []
  | o :: os => do
    let j ← Obj.toXml o
    let js ← Obj.toXmls os
    .ok (j :: js)
end

/-- asf.hpp:985-1035 `ASFExtensionInfo`: the object and what its export functions return. (Simplification: the
export functions run when the result is made, not when it is written.) -/
def toItem (info : ExtInfo) (headers : List Obj) : Res Item := do
  let js ← Obj.toJsons headers
  let xs ← Obj.toXmls headers
  .ok {
    info
    json := b!"{" ++ info.buildBaseJson ++
      (if headers.length > 0 then b!", \"headers\":[" ++ commas js ++ b!"]" else []) ++ b!"}"
    xml := b!"<item>" ++ info.buildBaseXml ++
      (if headers.length > 0 then b!"<headers>" ++ xs.flatten ++ b!"</headers>" else []) ++ b!"</item>"
    text := info.Extension ++ b!"\t" ++ info.VersionName ++ b!"\t" ++ dec info.Version
    csv := info.Extension ++ b!"," ++ info.VersionName ++ b!"," ++ dec info.Version }

/-! ## The extractor -/

/-- asf.hpp:1067-1083, what a codec list tells about the file. -/
def codecInfo (info : ExtInfo) (codecs : List CodecEntry) : ExtInfo :=
  match codecs with
  | [c] => if b!"Windows Media Audio" <+: c.Name then
      { info with Extension := b!"wma", Name := b!"Windows Media Audio" } else info
  | cs => cs.foldl (fun e c => if b!"Windows Media Video" <+: c.Name then
      { e with Extension := b!"wmv", Name := b!"Windows Media Video" } else e) info

/-- asf.hpp:1064-1084, what an object tells about the file. -/
def objInfo (info : ExtInfo) : Obj → ExtInfo
  | .codecList _ _ _ codecs => codecInfo info codecs
  | _ => info

/-- asf.hpp:1058-1089, the loop of `Detailer`; `n` counts the remaining iterations (`number - i`). -/
def headerLoop (parse : Nat → Res (Option Obj)) (size : Nat) : Nat → Nat → ExtInfo → List Obj →
    Res (ExtInfo × List Obj)
  | 0, _, info, headers => .ok (info, headers)
  | n + 1, index, info, headers =>
    if index < size then do
      match ← parse index with
      | some obj =>
        headerLoop parse size n (u32 (index + 24 + obj.data.length)) (objInfo info obj) (headers ++ [obj])
      | none => .ok (info, headers)
    else .ok (info, headers)

/-- asf.hpp:1037-1094 `Detailer`. The first object is taken for an `asf_header` whatever it is: for another
class, members behind its end are read. -/
def Detailer (abi : Abi) (room fuel : Nat) (file : File) (buffer : Bytes) : Res (List Item) := do
  let buffer := if buffer.length = 512 then readFile file (getFileSize file) else buffer
  let info : ExtInfo := { Extension := b!"asf", Name := b!"Advanced Systems Format (ASF)" }
  match ← Parse abi room fuel buffer buffer.length 0 with
  | none => do
    let item ← toItem info []
    .ok [item]
  | some (.header size number r1 r2) => do
    let (info, headers) ← headerLoop (Parse abi room fuel buffer buffer.length) size number 30 info
      [.header size number r1 r2]
    let item ← toItem info headers
    .ok [item]
  | some _ => .ub .oobRead

end Fileid.Asf
