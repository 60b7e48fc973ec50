import Verif.Spec.Formats
import Verif.Spec.Reader

/-!
# The Advanced Systems Format (ASF specification, revision 01.20.03)

What a file stores and what should be shown for it, independently of the model. Numbers are little-endian, text is
UTF-16.
-/

namespace Fileid.Spec.Asf

/-! ## Identifiers (section 10) -/

/-- The name of each identifier and its text. -/
def identifiers : List (Bytes × Bytes) := [
  (b!"ASF_Advanced_Content_Encryption_Object", b!"43058533-6981-49E6-9B74-AD12CB86D58C"),
  (b!"ASF_Advanced_Mutual_Exclusion_Object", b!"A08649CF-4775-4670-8A16-6E35357566CD"),
  (b!"ASF_Audio_Media", b!"F8699E40-5B4D-11CF-A8FD-00805F5C442B"),
  (b!"ASF_Audio_Spread", b!"BFC3CD50-618F-11CF-8BB2-00AA00B4E220"),
  (b!"ASF_Bandwidth_Sharing_Exclusive", b!"AF6060AA-5197-11D2-B6AF-00C04FD908E9"),
  (b!"ASF_Bandwidth_Sharing_Object", b!"A69609E6-517B-11D2-B6AF-00C04FD908E9"),
  (b!"ASF_Bandwidth_Sharing_Partial", b!"AF6060AB-5197-11D2-B6AF-00C04FD908E9"),
  (b!"ASF_Binary_Media", b!"3AFB65E2-47EF-40F2-AC2C-70A90D71D343"),
  (b!"ASF_Bitrate_Mutual_Exclusion_Object", b!"D6E229DC-35DA-11D1-9034-00A0C90349BE"),
  (b!"ASF_Codec_List_Object", b!"86D15240-311D-11D0-A3A4-00A0C90348F6"),
  (b!"ASF_Command_Media", b!"59DACFC0-59E6-11D0-A3AC-00A0C90348F6"),
  (b!"ASF_Compatibility_Object", b!"26F18B5D-4584-47EC-9F5F-0E651F0452C9"),
  (b!"ASF_Content_Branding_Object", b!"2211B3FA-BD23-11D2-B4B7-00A0C955FC6E"),
  (b!"ASF_Content_Description_Object", b!"75B22633-668E-11CF-A6D9-00AA0062CE6C"),
  (b!"ASF_Content_Encryption_Object", b!"2211B3FB-BD23-11D2-B4B7-00A0C955FC6E"),
  (b!"ASF_Content_Encryption_System_Windows_Media_DRM_Network_Devices", b!"7A079BB6-DAA4-4E12-A5CA-91D38DC11A8D"),
  (b!"ASF_Data_Object", b!"75B22636-668E-11CF-A6D9-00AA0062CE6C"),
  (b!"ASF_Degradable_JPEG_Media", b!"35907DE0-E415-11CF-A917-00805F5C442B"),
  (b!"ASF_Digital_Signature_Object", b!"2211B3FC-BD23-11D2-B4B7-00A0C955FC6E"),
  (b!"ASF_Error_Correction_Object", b!"75B22635-668E-11CF-A6D9-00AA0062CE6C"),
  (b!"ASF_Extended_Content_Description_Object", b!"D2D0A440-E307-11D2-97F0-00A0C95EA850"),
  (b!"ASF_Extended_Content_Encryption_Object", b!"298AE614-2622-4C17-B935-DAE07EE9289C"),
  (b!"ASF_Extended_Stream_Properties_Object", b!"14E6A5CB-C672-4332-8399-A96952065B5A"),
  (b!"ASF_File_Properties_Object", b!"8CABDCA1-A947-11CF-8EE4-00C00C205365"),
  (b!"ASF_File_Transfer_Media", b!"91BD222C-F21C-497A-8B6D-5AA86BFC0185"),
  (b!"ASF_Group_Mutual_Exclusion_Object", b!"D1465A40-5A79-4338-B71B-E36B8FD6C249"),
  (b!"ASF_Header_Extension_Object", b!"5FBF03B5-A92E-11CF-8EE3-00C00C205365"),
  (b!"ASF_Header_Object", b!"75B22630-668E-11CF-A6D9-00AA0062CE6C"),
  (b!"ASF_Index_Object", b!"D6E229D3-35DA-11D1-9034-00A0C90349BE"),
  (b!"ASF_Index_Parameters_Object", b!"D6E229DF-35DA-11D1-9034-00A0C90349BE"),
  (b!"ASF_JFIF_Media", b!"B61BE100-5B4E-11CF-A8FD-00805F5C442B"),
  (b!"ASF_Language_List_Object", b!"7C4346A9-EFE0-4BFC-B229-393EDE415C85"),
  (b!"ASF_Marker_Object", b!"F487CD01-A951-11CF-8EE6-00C00C205365"),
  (b!"ASF_Media_Object_Index_Object", b!"FEB103F8-12AD-4C64-840F-2A1D2F7AD48C"),
  (b!"ASF_Media_Object_Index_Parameters_Object", b!"6B203BAD-3F11-48E4-ACA8-D7613DE2CFA7"),
  (b!"ASF_Metadata_Library_Object", b!"44231C94-9498-49D1-A141-1D134E457054"),
  (b!"ASF_Metadata_Object", b!"C5F8CBEA-5BAF-4877-8467-AA8C44FA4CCA"),
  (b!"ASF_Mutex_Bitrate", b!"D6E22A01-35DA-11D1-9034-00A0C90349BE"),
  (b!"ASF_Mutex_Language", b!"D6E22A00-35DA-11D1-9034-00A0C90349BE"),
  (b!"ASF_Mutex_Unknown", b!"D6E22A02-35DA-11D1-9034-00A0C90349BE"),
  (b!"ASF_No_Error_Correction", b!"20FB5700-5B55-11CF-A8FD-00805F5C442B"),
  (b!"ASF_Padding_Object", b!"1806D474-CADF-4509-A4BA-9AABCB96AAE8"),
  (b!"ASF_Payload_Extension_System_Content_Type", b!"D590DC20-07BC-436C-9CF7-F3BBFBF1A4DC"),
  (b!"ASF_Payload_Extension_System_Encryption_Sample_ID", b!"6698B84E-0AFA-4330-AEB2-1C0A98D7A44D"),
  (b!"ASF_Payload_Extension_System_File_Name", b!"E165EC0E-19ED-45D7-B4A7-25CBD1E28E9B"),
  (b!"ASF_Payload_Extension_System_Pixel_Aspect_Ratio", b!"1B1EE554-F9EA-4BC8-821A-376B74E4C4B8"),
  (b!"ASF_Payload_Extension_System_Sample_Duration", b!"C6BD9450-867F-4907-83A3-C77921B733AD"),
  (b!"ASF_Payload_Extension_System_Timecode", b!"399595EC-8667-4E2D-8FDB-98814CE76C1E"),
  (b!"ASF_Reserved_1", b!"ABD3D211-A9BA-11CF-8EE6-00C00C205365"),
  (b!"ASF_Reserved_2", b!"86D15241-311D-11D0-A3A4-00A0C90348F6"),
  (b!"ASF_Reserved_3", b!"4B1ACBE3-100B-11D0-A39B-00A0C90348F6"),
  (b!"ASF_Reserved_4", b!"4CFEDB20-75F6-11CF-9C0F-00A0C90349CB"),
  (b!"ASF_Script_Command_Object", b!"1EFB1A30-0B62-11D0-A39B-00A0C90348F6"),
  (b!"ASF_Simple_Index_Object", b!"33000890-E5B1-11CF-89F4-00A0C90349CB"),
  (b!"ASF_Stream_Bitrate_Properties_Object", b!"7BF875CE-468D-11D1-8D82-006097C9A2B2"),
  (b!"ASF_Stream_Prioritization_Object", b!"D4FED15B-88D3-454F-81F0-ED5C45999E24"),
  (b!"ASF_Stream_Properties_Object", b!"B7DC0791-A9B7-11CF-8EE6-00C00C205365"),
  (b!"ASF_Timecode_Index_Object", b!"3CB73FD0-0C4A-4803-953D-EDF7B6228F0C"),
  (b!"ASF_Timecode_Index_Parameters_Object", b!"F55E496D-9797-4B5D-8C8B-604DFE9BFB24"),
  (b!"ASF_Video_Media", b!"BC19EFC0-5B4D-11CF-A8FD-00805F5C442B"),
  (b!"ASF_Web_Stream_Format", b!"DA1E6B13-8359-4050-B398-388E965BF00C"),
  (b!"ASF_Web_Stream_Media_Subtype", b!"776257D4-C627-41CB-8F81-7AC7FF1C40CC")]

/-- The sixteen bytes of an identifier: the first three groups of its text are little-endian numbers. -/
def idBytes (text : Bytes) : Bytes :=
  match (splitAll 45 text).map unhex with
  | [some a, some b, some c, some d, some e] => a.reverse ++ b.reverse ++ c.reverse ++ d ++ e
  | _ => []

/-- The identifiers by their bytes. -/
def byBytes : List (Bytes × Bytes) := identifiers.map fun e => (idBytes e.2, e.1)

/-- The name of an identifier. -/
def typeName (id : Bytes) : Bytes := nameOf byBytes b!"Unknown" id

def headerId : Bytes := idBytes b!"75B22630-668E-11CF-A6D9-00AA0062CE6C"
def filePropsId : Bytes := idBytes b!"8CABDCA1-A947-11CF-8EE4-00C00C205365"
def streamPropsId : Bytes := idBytes b!"B7DC0791-A9B7-11CF-8EE6-00C00C205365"
def headerExtId : Bytes := idBytes b!"5FBF03B5-A92E-11CF-8EE3-00C00C205365"
def contentDescId : Bytes := idBytes b!"75B22633-668E-11CF-A6D9-00AA0062CE6C"
def extContentId : Bytes := idBytes b!"D2D0A440-E307-11D2-97F0-00A0C95EA850"
def codecListId : Bytes := idBytes b!"86D15240-311D-11D0-A3A4-00A0C90348F6"
def compatibilityId : Bytes := idBytes b!"26F18B5D-4584-47EC-9F5F-0E651F0452C9"

/-! ## Objects (sections 2 and 3) -/

/-- Text: ASCII characters and the terminating zeros stored with them. -/
structure Text where
  chars : Bytes
  zeros : Nat

/-- The stored form: two bytes for each character. -/
def Text.stored (t : Text) : Bytes := (t.chars.flatMap fun c => [c, 0]) ++ List.replicate (2 * t.zeros) 0

/-- The number of characters stored. -/
def Text.units (t : Text) : Nat := t.chars.length + t.zeros

/-- Printable ASCII except the characters with a meaning in JSON strings or XML text. -/
def plain (s : Bytes) : Bool := s.all fun c => 32 ≤ c && c < 127 && c != 34 && c != 92 && c != 38 && c != 60

def Text.Valid (t : Text) : Prop := plain t.chars = true ∧ 2 * t.units < 2 ^ 16

/-- The value of an attribute. -/
inductive Value
  | text (t : Text)
  | bytes (b : Bytes)
  | bool (b : Bool)
  | dword (n : Nat)
  | qword (n : Nat)
  | word (n : Nat)

/-- The type code and the stored form of a value. -/
def Value.code : Value → Nat
  | .text _ => 0 | .bytes _ => 1 | .bool _ => 2 | .dword _ => 3 | .qword _ => 4 | .word _ => 5
def Value.stored : Value → Bytes
  | .text t => t.stored
  | .bytes b => b
  | .bool b => leBytes 4 (if b then 1 else 0)
  | .dword n => leBytes 4 n
  | .qword n => leBytes 8 n
  | .word n => leBytes 2 n

/-- No space at either end. -/
def Trimmed (s : Bytes) : Prop := s.head? ≠ some 32 ∧ s.getLast? ≠ some 32

def Value.Valid : Value → Prop
  | .text t => t.Valid ∧ Trimmed t.chars
  | .bytes b => b.length < 2 ^ 16
  | .bool _ => True
  | .dword n => n < 2 ^ 32
  | .qword n => n < 2 ^ 64
  | .word n => n < 2 ^ 16

structure Attr where
  name : Text
  value : Value

def Attr.stored (a : Attr) : Bytes :=
  leBytes 2 (2 * a.name.units) ++ a.name.stored ++ leBytes 2 a.value.code ++ leBytes 2 a.value.stored.length ++
    a.value.stored

def Attr.Valid (a : Attr) : Prop := a.name.Valid ∧ Trimmed a.name.chars ∧ a.value.Valid

structure Codec where
  type : Nat
  name : Text
  desc : Text
  info : Bytes

def Codec.stored (c : Codec) : Bytes :=
  leBytes 2 c.type ++ leBytes 2 c.name.units ++ c.name.stored ++ leBytes 2 c.desc.units ++ c.desc.stored ++
    leBytes 2 c.info.length ++ c.info

def Codec.Valid (c : Codec) : Prop := c.type < 2 ^ 16 ∧ c.name.Valid ∧ c.desc.Valid ∧ c.info.length < 2 ^ 16

/-- File properties (section 3.2). -/
structure FileInfo where
  fileId : Bytes
  size : Nat
  creation : Nat
  packets : Nat
  play : Nat
  send : Nat
  preroll : Nat
  flags : Nat
  minPacket : Nat
  maxPacket : Nat
  maxBitrate : Nat

def FileInfo.stored (f : FileInfo) : Bytes :=
  f.fileId ++ leBytes 8 f.size ++ leBytes 8 f.creation ++ leBytes 8 f.packets ++ leBytes 8 f.play ++ leBytes 8 f.send ++
    leBytes 8 f.preroll ++ leBytes 4 f.flags ++ leBytes 4 f.minPacket ++ leBytes 4 f.maxPacket ++ leBytes 4 f.maxBitrate

structure FileInfo.Valid (f : FileInfo) : Prop where
  fileId : f.fileId.length = 16
  size : f.size < 2 ^ 64
  creation : f.creation < 2 ^ 64
  packets : f.packets < 2 ^ 64
  play : f.play < 2 ^ 64
  send : f.send < 2 ^ 64
  preroll : f.preroll < 2 ^ 64
  flags : f.flags < 2 ^ 32
  minPacket : f.minPacket < 2 ^ 32
  maxPacket : f.maxPacket < 2 ^ 32
  maxBitrate : f.maxBitrate < 2 ^ 32

/-- Stream properties (section 3.3). -/
structure StreamInfo where
  streamType : Bytes
  errorType : Bytes
  timeOffset : Nat
  flags : Nat
  reserved : Nat
  typeData : Bytes
  errorData : Bytes

def StreamInfo.stored (s : StreamInfo) : Bytes :=
  s.streamType ++ s.errorType ++ leBytes 8 s.timeOffset ++ leBytes 4 s.typeData.length ++ leBytes 4 s.errorData.length ++
    leBytes 2 s.flags ++ leBytes 4 s.reserved ++ s.typeData ++ s.errorData

structure StreamInfo.Valid (s : StreamInfo) : Prop where
  streamType : s.streamType.length = 16
  errorType : s.errorType.length = 16
  timeOffset : s.timeOffset < 2 ^ 64
  flags : s.flags < 2 ^ 16
  reserved : s.reserved < 2 ^ 32

/-- An object of a header. -/
inductive Object
  | other (id data : Bytes)
  | fileProps (f : FileInfo)
  | streamProps (s : StreamInfo)
  | headerExt (clock : Bytes) (clockSize : Nat) (children : List Object)
  | contentDesc (title author copyright description rating : Text)
  | extContent (attrs : List Attr)
  | codecList (id : Bytes) (codecs : List Codec)

def Object.id : Object → Bytes
  | .other id _ => id
  | .fileProps _ => filePropsId
  | .streamProps _ => streamPropsId
  | .headerExt .. => headerExtId
  | .contentDesc .. => contentDescId
  | .extContent _ => extContentId
  | .codecList .. => codecListId

/-- An object: its identifier, its size and its data. -/
def frame (id data : Bytes) : Bytes := id ++ leBytes 8 (24 + data.length) ++ data

mutual
/-- The data of an object. -/
def Object.data : Object → Bytes
  | .other _ data => data
  | .fileProps f => f.stored
  | .streamProps s => s.stored
  | .headerExt clock n cs => clock ++ leBytes 2 n ++ leBytes 4 (stored cs).length ++ stored cs
  | .contentDesc t a c d r =>
    leBytes 2 (2 * t.units) ++ leBytes 2 (2 * a.units) ++ leBytes 2 (2 * c.units) ++ leBytes 2 (2 * d.units) ++
      leBytes 2 (2 * r.units) ++ t.stored ++ a.stored ++ c.stored ++ d.stored ++ r.stored
  | .extContent as => leBytes 2 as.length ++ as.flatMap Attr.stored
  | .codecList id cs => id ++ leBytes 4 cs.length ++ cs.flatMap Codec.stored
/-- Objects one after the other. -/
def stored : List Object → Bytes
  | [] => []
  | o :: os => frame o.id o.data ++ stored os
end

mutual
/-- Identifiers have sixteen bytes, numbers fit in their fields, texts are plain, lists of attributes and codecs are
not empty. -/
def Object.Valid : Object → Prop
  | .other id _ => id.length = 16 ∧
    id ∉ [headerId, filePropsId, streamPropsId, headerExtId, contentDescId, extContentId, codecListId]
  | .fileProps f => f.Valid
  | .streamProps s => s.Valid
  | .headerExt clock n cs => clock.length = 16 ∧ n < 2 ^ 16 ∧ AllValid cs
  | .contentDesc t a c d r => t.Valid ∧ a.Valid ∧ c.Valid ∧ d.Valid ∧ r.Valid
  | .extContent as => as ≠ [] ∧ as.length < 2 ^ 16 ∧ ∀ a ∈ as, a.Valid
  | .codecList id cs => id.length = 16 ∧ cs ≠ [] ∧ ∀ c ∈ cs, c.Valid
def AllValid : List Object → Prop
  | [] => True
  | o :: os => o.Valid ∧ AllValid os
end

/-- A file: the header object, which contains its objects, and anything after it. -/
def file (objects : List Object) (rest : Bytes) : Bytes :=
  frame headerId (leBytes 4 objects.length ++ [1, 2] ++ stored objects) ++ rest

/-! ## What should be shown -/

/-- Two lower-case hexadecimal digits for each byte. -/
def hexText (b : Bytes) : Bytes := b.flatMap fun x => [digitLower (x.toNat / 16), digitLower (x.toNat % 16)]

/-- How a reader names identifiers and content descriptions and understands numbers of four bytes. -/
structure Reading where
  typeName : Bytes → Bytes
  contentName : Bytes
  dword : Nat → Nat

/-- What the format says. -/
def right : Reading := ⟨typeName, b!"ASF_Content_Description_Object", id⟩

/-- What this program takes the format to be: the identifier of compatibility objects is not known, content
descriptions carry the name of another object and numbers of four bytes are read most significant byte first. -/
def program : Reading :=
  ⟨fun id => if id = compatibilityId then b!"Unknown" else typeName id, b!"ASF_Header_Extension_Object",
    fun n => bigEndian (leBytes 4 n)⟩

def Value.shown (r : Reading) : Value → Bytes
  | .text t => t.chars
  | .bytes b => hexText b
  | .bool b => if b then b!"true" else b!"false"
  | .dword n => dec (r.dword n)
  | .qword n => dec n
  | .word n => dec n

def codecType (n : Nat) : Bytes :=
  nameOf [(1, b!"Video"), (2, b!"Audio"), (0xFFFF, b!"Unknown")] b!"Undefined" n

/-- The fields of file properties that are numbers. -/
def FileInfo.numbers (f : FileInfo) : List (Bytes × Nat) :=
  [(b!"file_size", f.size), (b!"creation", f.creation), (b!"dp_count", f.packets), (b!"play_duration", f.play),
   (b!"send_duration", f.send), (b!"preroll", f.preroll), (b!"flags", f.flags), (b!"min_dp_size", f.minPacket),
   (b!"max_dp_size", f.maxPacket), (b!"max_bitrate", f.maxBitrate)]

/-- The fields of stream properties that are numbers. -/
def StreamInfo.numbers (s : StreamInfo) : List (Bytes × Nat) :=
  [(b!"time_offset", s.timeOffset), (b!"type_specific_data_length", s.typeData.length),
   (b!"error_correction_data_length", s.errorData.length), (b!"flags", s.flags), (b!"reserved", s.reserved)]

def Codec.json (c : Codec) : JVal :=
  .obj [(b!"type", .text (codecType c.type)), (b!"name", .text c.name.chars), (b!"description", .text c.desc.chars),
    (b!"info", .text (hexText c.info))]

mutual
/-- An object in JSON. -/
def Object.json (r : Reading) : Object → JVal
  | .other id data => .obj [(b!"Type", .text (r.typeName id)), (b!"Data", .text (hexText data))]
  | .fileProps f => .obj ([(b!"Type", .text b!"ASF_File_Properties_Object"), (b!"file_id", .text (hexText f.fileId))] ++
      f.numbers.map fun p => (p.1, .nat p.2))
  | .streamProps s => .obj ([(b!"Type", .text b!"ASF_Stream_Properties_Object"),
      (b!"stream_type", .text (r.typeName s.streamType)), (b!"error_correction_type", .text (r.typeName s.errorType))] ++
      (s.numbers.map fun p => (p.1, .nat p.2)) ++ [(b!"type_specific_data", .text (hexText s.typeData)),
      (b!"error_correction_data", .text (hexText s.errorData))])
  | .headerExt clock n cs => .obj [(b!"Type", .text b!"ASF_Header_Extension_Object"),
      (b!"clock_type", .text (r.typeName clock)), (b!"clock_size", .text (dec n)),
      (b!"header_extension_data_size", .text (dec (stored cs).length)),
      if cs.isEmpty then (b!"header_extension_data", .text []) else (b!"children", .arr (jsons r cs))]
  | .contentDesc t a c d rt => .obj [(b!"Type", .text r.contentName), (b!"title", .text t.chars),
      (b!"author", .text a.chars), (b!"copyright", .text c.chars), (b!"description", .text d.chars),
      (b!"rating", .text rt.chars)]
  | .extContent as => .obj [(b!"Type", .text b!"ASF_Extended_Content_Description_Object"),
      (b!"content_descriptors_count", .nat as.length),
      (b!"attributes", .obj (as.map fun a => (a.name.chars, .text (a.value.shown r))))]
  | .codecList id cs => .obj [(b!"Type", .text b!"ASF_Codec_List_Object"), (b!"codec_id", .text (r.typeName id)),
      (b!"codec_entries_count", .text (dec cs.length)), (b!"codecs", .arr (cs.map Codec.json))]
def jsons (r : Reading) : List Object → List JVal
  | [] => []
  | o :: os => o.json r :: jsons r os
end

def Codec.xml (c : Codec) : XVal :=
  .elem b!"codec" [.leaf b!"type" (codecType c.type), .leaf b!"name" c.name.chars, .leaf b!"description" c.desc.chars,
    .leaf b!"info" (hexText c.info)]

mutual
/-- An object in XML. -/
def Object.xml (r : Reading) : Object → XVal
  | .other id data => .elem b!"ASFObject" [.leaf b!"Type" (r.typeName id), .leaf b!"Data" (hexText data)]
  | .fileProps f => .elem b!"ASFObject" ([.leaf b!"Type" b!"ASF_File_Properties_Object",
      .leaf b!"file_id" (hexText f.fileId)] ++ f.numbers.map fun p => .leaf p.1 (dec p.2))
  | .streamProps s => .elem b!"ASFObject" ([.leaf b!"Type" b!"ASF_Stream_Properties_Object",
      .leaf b!"stream_type" (r.typeName s.streamType), .leaf b!"error_correction_type" (r.typeName s.errorType)] ++
      (s.numbers.map fun p => .leaf p.1 (dec p.2)) ++ [.leaf b!"type_specific_data" (hexText s.typeData),
      .leaf b!"error_correction_data" (hexText s.errorData)])
  | .headerExt clock n cs => .elem b!"ASFObject" [.leaf b!"Type" b!"ASF_Header_Extension_Object",
      .leaf b!"clock_type" (r.typeName clock), .leaf b!"clock_size" (dec n),
      .leaf b!"header_extension_data_size" (dec (stored cs).length),
      if cs.isEmpty then .leaf b!"header_extension_data" [] else .elem b!"children" (xmls r cs)]
  | .contentDesc t a c d rt => .elem b!"ASFObject" [.leaf b!"Type" r.contentName, .leaf b!"title" t.chars,
      .leaf b!"author" a.chars, .leaf b!"copyright" c.chars, .leaf b!"description" d.chars, .leaf b!"rating" rt.chars]
  | .extContent as => .elem b!"ASFObject" [.leaf b!"Type" b!"ASF_Extended_Content_Description_Object",
      .leaf b!"content_descriptors_count" (dec as.length),
      .elem b!"attributes" (as.flatMap fun a => [.leaf b!"Name" a.name.chars, .leaf b!"Value" (a.value.shown r)])]
  | .codecList id cs => .elem b!"ASFObject" [.leaf b!"Type" b!"ASF_Codec_List_Object",
      .leaf b!"codec_id" (r.typeName id), .leaf b!"codec_entries_count" (dec cs.length),
      .elem b!"codecs" (cs.map Codec.xml)]
def xmls (r : Reading) : List Object → List XVal
  | [] => []
  | o :: os => o.xml r :: xmls r os
end

mutual
/-- The object contains nothing that `right` and `program` show differently. -/
def Object.Agrees : Object → Prop
  | .other id _ => id ≠ compatibilityId
  | .fileProps _ => True
  | .streamProps s => s.streamType ≠ compatibilityId ∧ s.errorType ≠ compatibilityId
  | .headerExt clock _ cs => clock ≠ compatibilityId ∧ AllAgree cs
  | .contentDesc .. => False
  | .extContent as => ∀ a ∈ as, ∀ n, a.value = .dword n → bigEndian (leBytes 4 n) = n
  | .codecList id _ => id ≠ compatibilityId
def AllAgree : List Object → Prop
  | [] => True
  | o :: os => o.Agrees ∧ AllAgree os
end

/-- The extension and the name of a kind of file. -/
def kindNames : List (Bytes × Bytes) :=
  [(b!"asf", b!"Advanced Systems Format (ASF)"), (b!"wma", b!"Windows Media Audio"), (b!"wmv", b!"Windows Media Video")]

/-- The codecs a header lists. -/
def codecs (objects : List Object) : List Codec :=
  objects.flatMap fun o => match o with
    | .codecList _ cs => cs
    | _ => []

/-- The kind of a file: video if a Windows Media Video codec is listed, else audio if a Windows Media Audio codec is
listed, else unspecific. -/
def kind (objects : List Object) : Bytes :=
  if ∃ c ∈ codecs objects, b!"Windows Media Video" <+: c.name.chars then b!"wmv"
  else if ∃ c ∈ codecs objects, b!"Windows Media Audio" <+: c.name.chars then b!"wma"
  else b!"asf"

/-- What is shown for a file of kind `ext`. -/
def fileJson (r : Reading) (ext : Bytes) (objects : List Object) : JVal :=
  .obj [(b!"extension", .text ext), (b!"name", .text (nameOf kindNames [] ext)),
    (b!"headers", .arr (.obj [(b!"Type", .text b!"ASF_Header_Object"), (b!"Number", .nat objects.length),
      (b!"Alignment", .nat 1), (b!"Architecture", .nat 2)] :: jsons r objects))]
def fileXml (r : Reading) (ext : Bytes) (objects : List Object) : XVal :=
  .elem b!"item" [.leaf b!"extension" ext, .leaf b!"name" (nameOf kindNames [] ext),
    .elem b!"headers" (.elem b!"ASFObject" [.leaf b!"Type" b!"ASF_Header_Object", .leaf b!"Number" (dec objects.length),
      .leaf b!"Alignment" (dec 1), .leaf b!"Architecture" (dec 2)] :: xmls r objects)]

end Fileid.Spec.Asf
