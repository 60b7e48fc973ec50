import Verif.Model.Common

/-!
# The tables of `fileid/media/asf/asf.hpp` (written by a script from the source text)
-/

namespace Fileid.Asf

/-- asf.hpp:81-147 `ASFType`. -/
inductive ASFType
  | Unknown
  | ASF_Advanced_Content_Encryption_Object
  | ASF_Advanced_Mutual_Exclusion_Object
  | ASF_Audio_Media
  | ASF_Audio_Spread
  | ASF_Bandwidth_Sharing_Exclusive
  | ASF_Bandwidth_Sharing_Object
  | ASF_Bandwidth_Sharing_Partial
  | ASF_Binary_Media
  | ASF_Bitrate_Mutual_Exclusion_Object
  | ASF_Codec_List_Object
  | ASF_Command_Media
  | ASF_Compatibility_Object
  | ASF_Content_Branding_Object
  | ASF_Content_Description_Object
  | ASF_Content_Encryption_Object
  | ASF_Content_Encryption_System_Windows_Media_DRM_Network_Devices
  | ASF_Data_Object
  | ASF_Degradable_JPEG_Media
  | ASF_Digital_Signature_Object
  | ASF_Error_Correction_Object
  | ASF_Extended_Content_Description_Object
  | ASF_Extended_Content_Encryption_Object
  | ASF_Extended_Stream_Properties_Object
  | ASF_File_Properties_Object
  | ASF_File_Transfer_Media
  | ASF_Group_Mutual_Exclusion_Object
  | ASF_Header_Extension_Object
  | ASF_Header_Object
  | ASF_Index_Object
  | ASF_Index_Parameters_Object
  | ASF_JFIF_Media
  | ASF_Language_List_Object
  | ASF_Marker_Object
  | ASF_Media_Object_Index_Object
  | ASF_Media_Object_Index_Parameters_Object
  | ASF_Metadata_Library_Object
  | ASF_Metadata_Object
  | ASF_Mutex_Bitrate
  | ASF_Mutex_Language
  | ASF_Mutex_Unknown
  | ASF_No_Error_Correction
  | ASF_Padding_Object
  | ASF_Payload_Extension_System_Content_Type
  | ASF_Payload_Extension_System_Encryption_Sample_ID
  | ASF_Payload_Extension_System_File_Name
  | ASF_Payload_Extension_System_Pixel_Aspect_Ratio
  | ASF_Payload_Extension_System_Sample_Duration
  | ASF_Payload_Extension_System_Timecode
  | ASF_Reserved_1
  | ASF_Reserved_2
  | ASF_Reserved_3
  | ASF_Reserved_4
  | ASF_Script_Command_Object
  | ASF_Simple_Index_Object
  | ASF_Stream_Bitrate_Properties_Object
  | ASF_Stream_Prioritization_Object
  | ASF_Stream_Properties_Object
  | ASF_Timecode_Index_Object
  | ASF_Timecode_Index_Parameters_Object
  | ASF_Video_Media
  | ASF_Web_Stream_Format
  | ASF_Web_Stream_Media_Subtype
  deriving DecidableEq, Repr

/-- asf.hpp:42 -/
def g_ASF_Header_Object : Bytes :=
  [0x30, 0x26, 0xB2, 0x75, 0x8E, 0x66, 0xCF, 0x11, 0xA6, 0xD9, 0x00, 0xAA, 0x00, 0x62, 0xCE, 0x6C]
/-- asf.hpp:31 -/
def g_ASF_Data_Object : Bytes :=
  [0x36, 0x26, 0xB2, 0x75, 0x8E, 0x66, 0xCF, 0x11, 0xA6, 0xD9, 0x00, 0xAA, 0x00, 0x62, 0xCE, 0x6C]
/-- asf.hpp:68 -/
def g_ASF_Simple_Index_Object : Bytes :=
  [0x90, 0x08, 0x00, 0x33, 0xB1, 0xE5, 0xCF, 0x11, 0x89, 0xF4, 0x00, 0xA0, 0xC9, 0x03, 0x49, 0xCB]
/-- asf.hpp:43 -/
def g_ASF_Index_Object : Bytes :=
  [0xD3, 0x29, 0xE2, 0xD6, 0xDA, 0x35, 0xD1, 0x11, 0x90, 0x34, 0x00, 0xA0, 0xC9, 0x03, 0x49, 0xBE]
/-- asf.hpp:48 -/
def g_ASF_Media_Object_Index_Object : Bytes :=
  [0xF8, 0x03, 0xB1, 0xFE, 0xAD, 0x12, 0x64, 0x4C, 0x84, 0x0F, 0x2A, 0x1D, 0x2F, 0x7A, 0xD4, 0x8C]
/-- asf.hpp:72 -/
def g_ASF_Timecode_Index_Object : Bytes :=
  [0xD0, 0x3F, 0xB7, 0x3C, 0x4A, 0x0C, 0x03, 0x48, 0x95, 0x3D, 0xED, 0xF7, 0xB6, 0x22, 0x8F, 0x0C]
/-- asf.hpp:38 -/
def g_ASF_File_Properties_Object : Bytes :=
  [0xA1, 0xDC, 0xAB, 0x8C, 0x47, 0xA9, 0xCF, 0x11, 0x8E, 0xE4, 0x00, 0xC0, 0x0C, 0x20, 0x53, 0x65]
/-- asf.hpp:41 -/
def g_ASF_Header_Extension_Object : Bytes :=
  [0xB5, 0x03, 0xBF, 0x5F, 0x2E, 0xA9, 0xCF, 0x11, 0x8E, 0xE3, 0x00, 0xC0, 0x0C, 0x20, 0x53, 0x65]
/-- asf.hpp:71 -/
def g_ASF_Stream_Properties_Object : Bytes :=
  [0x91, 0x07, 0xDC, 0xB7, 0xB7, 0xA9, 0xCF, 0x11, 0x8E, 0xE6, 0x00, 0xC0, 0x0C, 0x20, 0x53, 0x65]
/-- asf.hpp:24 -/
def g_ASF_Codec_List_Object : Bytes :=
  [0x40, 0x52, 0xD1, 0x86, 0x1D, 0x31, 0xD0, 0x11, 0xA3, 0xA4, 0x00, 0xA0, 0xC9, 0x03, 0x48, 0xF6]
/-- asf.hpp:67 -/
def g_ASF_Script_Command_Object : Bytes :=
  [0x30, 0x1A, 0xFB, 0x1E, 0x62, 0x0B, 0xD0, 0x11, 0xA3, 0x9B, 0x00, 0xA0, 0xC9, 0x03, 0x48, 0xF6]
/-- asf.hpp:47 -/
def g_ASF_Marker_Object : Bytes :=
  [0x01, 0xCD, 0x87, 0xF4, 0x51, 0xA9, 0xCF, 0x11, 0x8E, 0xE6, 0x00, 0xC0, 0x0C, 0x20, 0x53, 0x65]
/-- asf.hpp:23 -/
def g_ASF_Bitrate_Mutual_Exclusion_Object : Bytes :=
  [0xDC, 0x29, 0xE2, 0xD6, 0xDA, 0x35, 0xD1, 0x11, 0x90, 0x34, 0x00, 0xA0, 0xC9, 0x03, 0x49, 0xBE]
/-- asf.hpp:34 -/
def g_ASF_Error_Correction_Object : Bytes :=
  [0x35, 0x26, 0xB2, 0x75, 0x8E, 0x66, 0xCF, 0x11, 0xA6, 0xD9, 0x00, 0xAA, 0x00, 0x62, 0xCE, 0x6C]
/-- asf.hpp:28 -/
def g_ASF_Content_Description_Object : Bytes :=
  [0x33, 0x26, 0xB2, 0x75, 0x8E, 0x66, 0xCF, 0x11, 0xA6, 0xD9, 0x00, 0xAA, 0x00, 0x62, 0xCE, 0x6C]
/-- asf.hpp:35 -/
def g_ASF_Extended_Content_Description_Object : Bytes :=
  [0x40, 0xA4, 0xD0, 0xD2, 0x07, 0xE3, 0xD2, 0x11, 0x97, 0xF0, 0x00, 0xA0, 0xC9, 0x5E, 0xA8, 0x50]
/-- asf.hpp:27 -/
def g_ASF_Content_Branding_Object : Bytes :=
  [0xFA, 0xB3, 0x11, 0x22, 0x23, 0xBD, 0xD2, 0x11, 0xB4, 0xB7, 0x00, 0xA0, 0xC9, 0x55, 0xFC, 0x6E]
/-- asf.hpp:69 -/
def g_ASF_Stream_Bitrate_Properties_Object : Bytes :=
  [0xCE, 0x75, 0xF8, 0x7B, 0x8D, 0x46, 0xD1, 0x11, 0x8D, 0x82, 0x00, 0x60, 0x97, 0xC9, 0xA2, 0xB2]
/-- asf.hpp:29 -/
def g_ASF_Content_Encryption_Object : Bytes :=
  [0xFB, 0xB3, 0x11, 0x22, 0x23, 0xBD, 0xD2, 0x11, 0xB4, 0xB7, 0x00, 0xA0, 0xC9, 0x55, 0xFC, 0x6E]
/-- asf.hpp:36 -/
def g_ASF_Extended_Content_Encryption_Object : Bytes :=
  [0x14, 0xE6, 0x8A, 0x29, 0x22, 0x26, 0x17, 0x4C, 0xB9, 0x35, 0xDA, 0xE0, 0x7E, 0xE9, 0x28, 0x9C]
/-- asf.hpp:33 -/
def g_ASF_Digital_Signature_Object : Bytes :=
  [0xFC, 0xB3, 0x11, 0x22, 0x23, 0xBD, 0xD2, 0x11, 0xB4, 0xB7, 0x00, 0xA0, 0xC9, 0x55, 0xFC, 0x6E]
/-- asf.hpp:56 -/
def g_ASF_Padding_Object : Bytes :=
  [0x74, 0xD4, 0x06, 0x18, 0xDF, 0xCA, 0x09, 0x45, 0xA4, 0xBA, 0x9A, 0xAB, 0xCB, 0x96, 0xAA, 0xE8]
/-- asf.hpp:15 -/
def g_ASF_Advanced_Content_Encryption_Object : Bytes :=
  [0x33, 0x85, 0x05, 0x43, 0x81, 0x69, 0xE6, 0x49, 0x9B, 0x74, 0xAD, 0x12, 0xCB, 0x86, 0xD5, 0x8C]
/-- asf.hpp:16 -/
def g_ASF_Advanced_Mutual_Exclusion_Object : Bytes :=
  [0xCF, 0x49, 0x86, 0xA0, 0x75, 0x47, 0x70, 0x46, 0x8A, 0x16, 0x6E, 0x35, 0x35, 0x75, 0x66, 0xCD]
/-- asf.hpp:17 -/
def g_ASF_Audio_Media : Bytes :=
  [0x40, 0x9E, 0x69, 0xF8, 0x4D, 0x5B, 0xCF, 0x11, 0xA8, 0xFD, 0x00, 0x80, 0x5F, 0x5C, 0x44, 0x2B]
/-- asf.hpp:18 -/
def g_ASF_Audio_Spread : Bytes :=
  [0x50, 0xCD, 0xC3, 0xBF, 0x8F, 0x61, 0xCF, 0x11, 0x8B, 0xB2, 0x00, 0xAA, 0x00, 0xB4, 0xE2, 0x20]
/-- asf.hpp:19 -/
def g_ASF_Bandwidth_Sharing_Exclusive : Bytes :=
  [0xAA, 0x60, 0x60, 0xAF, 0x97, 0x51, 0xD2, 0x11, 0xB6, 0xAF, 0x00, 0xC0, 0x4F, 0xD9, 0x08, 0xE9]
/-- asf.hpp:20 -/
def g_ASF_Bandwidth_Sharing_Object : Bytes :=
  [0xE6, 0x09, 0x96, 0xA6, 0x7B, 0x51, 0xD2, 0x11, 0xB6, 0xAF, 0x00, 0xC0, 0x4F, 0xD9, 0x08, 0xE9]
/-- asf.hpp:21 -/
def g_ASF_Bandwidth_Sharing_Partial : Bytes :=
  [0xAB, 0x60, 0x60, 0xAF, 0x97, 0x51, 0xD2, 0x11, 0xB6, 0xAF, 0x00, 0xC0, 0x4F, 0xD9, 0x08, 0xE9]
/-- asf.hpp:22 -/
def g_ASF_Binary_Media : Bytes :=
  [0xE2, 0x65, 0xFB, 0x3A, 0xEF, 0x47, 0xF2, 0x40, 0xAC, 0x2C, 0x70, 0xA9, 0x0D, 0x71, 0xD3, 0x43]
/-- asf.hpp:25 -/
def g_ASF_Command_Media : Bytes :=
  [0xC0, 0xCF, 0xDA, 0x59, 0xE6, 0x59, 0xD0, 0x11, 0xA3, 0xAC, 0x00, 0xA0, 0xC9, 0x03, 0x48, 0xF6]
/-- asf.hpp:26 -/
def g_ASF_Compatibility_Object : Bytes :=
  [0x30, 0x26, 0xB2, 0x75, 0x8E, 0x66, 0xCF, 0x11, 0xA6, 0xD9, 0x00, 0xAA, 0x00, 0x62, 0xCE, 0x6C]
/-- asf.hpp:30 -/
def g_ASF_Content_Encryption_System_Windows_Media_DRM_Network_Devices : Bytes :=
  [0xB6, 0x9B, 0x07, 0x7A, 0xA4, 0xDA, 0x12, 0x4E, 0xA5, 0xCA, 0x91, 0xD3, 0x8D, 0xC1, 0x1A, 0x8D]
/-- asf.hpp:32 -/
def g_ASF_Degradable_JPEG_Media : Bytes :=
  [0xE0, 0x7D, 0x90, 0x35, 0x15, 0xE4, 0xCF, 0x11, 0xA9, 0x17, 0x00, 0x80, 0x5F, 0x5C, 0x44, 0x2B]
/-- asf.hpp:37 -/
def g_ASF_Extended_Stream_Properties_Object : Bytes :=
  [0xCB, 0xA5, 0xE6, 0x14, 0x72, 0xC6, 0x32, 0x43, 0x83, 0x99, 0xA9, 0x69, 0x52, 0x06, 0x5B, 0x5A]
/-- asf.hpp:39 -/
def g_ASF_File_Transfer_Media : Bytes :=
  [0x2C, 0x22, 0xBD, 0x91, 0x1C, 0xF2, 0x7A, 0x49, 0x8B, 0x6D, 0x5A, 0xA8, 0x6B, 0xFC, 0x01, 0x85]
/-- asf.hpp:40 -/
def g_ASF_Group_Mutual_Exclusion_Object : Bytes :=
  [0x40, 0x5A, 0x46, 0xD1, 0x79, 0x5A, 0x38, 0x43, 0xB7, 0x1B, 0xE3, 0x6B, 0x8F, 0xD6, 0xC2, 0x49]
/-- asf.hpp:44 -/
def g_ASF_Index_Parameters_Object : Bytes :=
  [0xDF, 0x29, 0xE2, 0xD6, 0xDA, 0x35, 0xD1, 0x11, 0x90, 0x34, 0x00, 0xA0, 0xC9, 0x03, 0x49, 0xBE]
/-- asf.hpp:45 -/
def g_ASF_JFIF_Media : Bytes :=
  [0x00, 0xE1, 0x1B, 0xB6, 0x4E, 0x5B, 0xCF, 0x11, 0xA8, 0xFD, 0x00, 0x80, 0x5F, 0x5C, 0x44, 0x2B]
/-- asf.hpp:46 -/
def g_ASF_Language_List_Object : Bytes :=
  [0xA9, 0x46, 0x43, 0x7C, 0xE0, 0xEF, 0xFC, 0x4B, 0xB2, 0x29, 0x39, 0x3E, 0xDE, 0x41, 0x5C, 0x85]
/-- asf.hpp:49 -/
def g_ASF_Media_Object_Index_Parameters_Object : Bytes :=
  [0xAD, 0x3B, 0x20, 0x6B, 0x11, 0x3F, 0xE4, 0x48, 0xAC, 0xA8, 0xD7, 0x61, 0x3D, 0xE2, 0xCF, 0xA7]
/-- asf.hpp:50 -/
def g_ASF_Metadata_Library_Object : Bytes :=
  [0x94, 0x1C, 0x23, 0x44, 0x98, 0x94, 0xD1, 0x49, 0xA1, 0x41, 0x1D, 0x13, 0x4E, 0x45, 0x70, 0x54]
/-- asf.hpp:51 -/
def g_ASF_Metadata_Object : Bytes :=
  [0xEA, 0xCB, 0xF8, 0xC5, 0xAF, 0x5B, 0x77, 0x48, 0x84, 0x67, 0xAA, 0x8C, 0x44, 0xFA, 0x4C, 0xCA]
/-- asf.hpp:52 -/
def g_ASF_Mutex_Bitrate : Bytes :=
  [0x01, 0x2A, 0xE2, 0xD6, 0xDA, 0x35, 0xD1, 0x11, 0x90, 0x34, 0x00, 0xA0, 0xC9, 0x03, 0x49, 0xBE]
/-- asf.hpp:53 -/
def g_ASF_Mutex_Language : Bytes :=
  [0x00, 0x2A, 0xE2, 0xD6, 0xDA, 0x35, 0xD1, 0x11, 0x90, 0x34, 0x00, 0xA0, 0xC9, 0x03, 0x49, 0xBE]
/-- asf.hpp:54 -/
def g_ASF_Mutex_Unknown : Bytes :=
  [0x02, 0x2A, 0xE2, 0xD6, 0xDA, 0x35, 0xD1, 0x11, 0x90, 0x34, 0x00, 0xA0, 0xC9, 0x03, 0x49, 0xBE]
/-- asf.hpp:55 -/
def g_ASF_No_Error_Correction : Bytes :=
  [0x00, 0x57, 0xFB, 0x20, 0x55, 0x5B, 0xCF, 0x11, 0xA8, 0xFD, 0x00, 0x80, 0x5F, 0x5C, 0x44, 0x2B]
/-- asf.hpp:57 -/
def g_ASF_Payload_Extension_System_Content_Type : Bytes :=
  [0x20, 0xDC, 0x90, 0xD5, 0xBC, 0x07, 0x6C, 0x43, 0x9C, 0xF7, 0xF3, 0xBB, 0xFB, 0xF1, 0xA4, 0xDC]
/-- asf.hpp:58 -/
def g_ASF_Payload_Extension_System_Encryption_Sample_ID : Bytes :=
  [0x4E, 0xB8, 0x98, 0x66, 0xFA, 0x0A, 0x30, 0x43, 0xAE, 0xB2, 0x1C, 0x0A, 0x98, 0xD7, 0xA4, 0x4D]
/-- asf.hpp:59 -/
def g_ASF_Payload_Extension_System_File_Name : Bytes :=
  [0x0E, 0xEC, 0x65, 0xE1, 0xED, 0x19, 0xD7, 0x45, 0xB4, 0xA7, 0x25, 0xCB, 0xD1, 0xE2, 0x8E, 0x9B]
/-- asf.hpp:60 -/
def g_ASF_Payload_Extension_System_Pixel_Aspect_Ratio : Bytes :=
  [0x54, 0xE5, 0x1E, 0x1B, 0xEA, 0xF9, 0xC8, 0x4B, 0x82, 0x1A, 0x37, 0x6B, 0x74, 0xE4, 0xC4, 0xB8]
/-- asf.hpp:61 -/
def g_ASF_Payload_Extension_System_Sample_Duration : Bytes :=
  [0x50, 0x94, 0xBD, 0xC6, 0x7F, 0x86, 0x07, 0x49, 0x83, 0xA3, 0xC7, 0x79, 0x21, 0xB7, 0x33, 0xAD]
/-- asf.hpp:62 -/
def g_ASF_Payload_Extension_System_Timecode : Bytes :=
  [0xEC, 0x95, 0x95, 0x39, 0x67, 0x86, 0x2D, 0x4E, 0x8F, 0xDB, 0x98, 0x81, 0x4C, 0xE7, 0x6C, 0x1E]
/-- asf.hpp:63 -/
def g_ASF_Reserved_1 : Bytes :=
  [0x11, 0xD2, 0xD3, 0xAB, 0xBA, 0xA9, 0xCF, 0x11, 0x8E, 0xE6, 0x00, 0xC0, 0x0C, 0x20, 0x53, 0x65]
/-- asf.hpp:64 -/
def g_ASF_Reserved_2 : Bytes :=
  [0x41, 0x52, 0xD1, 0x86, 0x1D, 0x31, 0xD0, 0x11, 0xA3, 0xA4, 0x00, 0xA0, 0xC9, 0x03, 0x48, 0xF6]
/-- asf.hpp:65 -/
def g_ASF_Reserved_3 : Bytes :=
  [0xE3, 0xCB, 0x1A, 0x4B, 0x0B, 0x10, 0xD0, 0x11, 0xA3, 0x9B, 0x00, 0xA0, 0xC9, 0x03, 0x48, 0xF6]
/-- asf.hpp:66 -/
def g_ASF_Reserved_4 : Bytes :=
  [0x20, 0xDB, 0xFE, 0x4C, 0xF6, 0x75, 0xCF, 0x11, 0x9C, 0x0F, 0x00, 0xA0, 0xC9, 0x03, 0x49, 0xCB]
/-- asf.hpp:70 -/
def g_ASF_Stream_Prioritization_Object : Bytes :=
  [0x5B, 0xD1, 0xFE, 0xD4, 0xD3, 0x88, 0x4F, 0x45, 0x81, 0xF0, 0xED, 0x5C, 0x45, 0x99, 0x9E, 0x24]
/-- asf.hpp:73 -/
def g_ASF_Timecode_Index_Parameters_Object : Bytes :=
  [0x6D, 0x49, 0x5E, 0xF5, 0x97, 0x97, 0x5D, 0x4B, 0x8C, 0x8B, 0x60, 0x4D, 0xFE, 0x9B, 0xFB, 0x24]
/-- asf.hpp:74 -/
def g_ASF_Video_Media : Bytes :=
  [0xC0, 0xEF, 0x19, 0xBC, 0x4D, 0x5B, 0xCF, 0x11, 0xA8, 0xFD, 0x00, 0x80, 0x5F, 0x5C, 0x44, 0x2B]
/-- asf.hpp:75 -/
def g_ASF_Web_Stream_Format : Bytes :=
  [0x13, 0x6B, 0x1E, 0xDA, 0x59, 0x83, 0x50, 0x40, 0xB3, 0x98, 0x38, 0x8E, 0x96, 0x5B, 0xF0, 0x0C]
/-- asf.hpp:76 -/
def g_ASF_Web_Stream_Media_Subtype : Bytes :=
  [0xD4, 0x57, 0x62, 0x77, 0x27, 0xC6, 0xCB, 0x41, 0x8F, 0x81, 0x7A, 0xC7, 0xFF, 0x1C, 0x40, 0xCC]

/-- asf.hpp:150-214, the comparisons of `ASFTypeFromGuid` in their order. -/
def guidTable : List (Bytes × ASFType) := [
  (g_ASF_Header_Object, .ASF_Header_Object),
  (g_ASF_Data_Object, .ASF_Data_Object),
  (g_ASF_Simple_Index_Object, .ASF_Simple_Index_Object),
  (g_ASF_Index_Object, .ASF_Index_Object),
  (g_ASF_Media_Object_Index_Object, .ASF_Media_Object_Index_Object),
  (g_ASF_Timecode_Index_Object, .ASF_Timecode_Index_Object),
  (g_ASF_File_Properties_Object, .ASF_File_Properties_Object),
  (g_ASF_Header_Extension_Object, .ASF_Header_Extension_Object),
  (g_ASF_Stream_Properties_Object, .ASF_Stream_Properties_Object),
  (g_ASF_Codec_List_Object, .ASF_Codec_List_Object),
  (g_ASF_Script_Command_Object, .ASF_Script_Command_Object),
  (g_ASF_Marker_Object, .ASF_Marker_Object),
  (g_ASF_Bitrate_Mutual_Exclusion_Object, .ASF_Bitrate_Mutual_Exclusion_Object),
  (g_ASF_Error_Correction_Object, .ASF_Error_Correction_Object),
  (g_ASF_Content_Description_Object, .ASF_Content_Description_Object),
  (g_ASF_Extended_Content_Description_Object, .ASF_Extended_Content_Description_Object),
  (g_ASF_Content_Branding_Object, .ASF_Content_Branding_Object),
  (g_ASF_Stream_Bitrate_Properties_Object, .ASF_Stream_Bitrate_Properties_Object),
  (g_ASF_Content_Encryption_Object, .ASF_Content_Encryption_Object),
  (g_ASF_Extended_Content_Encryption_Object, .ASF_Extended_Content_Encryption_Object),
  (g_ASF_Digital_Signature_Object, .ASF_Digital_Signature_Object),
  (g_ASF_Padding_Object, .ASF_Padding_Object),
  (g_ASF_Advanced_Content_Encryption_Object, .ASF_Advanced_Content_Encryption_Object),
  (g_ASF_Advanced_Mutual_Exclusion_Object, .ASF_Advanced_Mutual_Exclusion_Object),
  (g_ASF_Audio_Media, .ASF_Audio_Media),
  (g_ASF_Audio_Spread, .ASF_Audio_Spread),
  (g_ASF_Bandwidth_Sharing_Exclusive, .ASF_Bandwidth_Sharing_Exclusive),
  (g_ASF_Bandwidth_Sharing_Object, .ASF_Bandwidth_Sharing_Object),
  (g_ASF_Bandwidth_Sharing_Partial, .ASF_Bandwidth_Sharing_Partial),
  (g_ASF_Binary_Media, .ASF_Binary_Media),
  (g_ASF_Command_Media, .ASF_Command_Media),
  (g_ASF_Compatibility_Object, .ASF_Compatibility_Object),
  (g_ASF_Content_Encryption_System_Windows_Media_DRM_Network_Devices, .ASF_Content_Encryption_System_Windows_Media_DRM_Network_Devices),
  (g_ASF_Degradable_JPEG_Media, .ASF_Degradable_JPEG_Media),
  (g_ASF_Extended_Stream_Properties_Object, .ASF_Extended_Stream_Properties_Object),
  (g_ASF_File_Transfer_Media, .ASF_File_Transfer_Media),
  (g_ASF_Group_Mutual_Exclusion_Object, .ASF_Group_Mutual_Exclusion_Object),
  (g_ASF_Index_Parameters_Object, .ASF_Index_Parameters_Object),
  (g_ASF_JFIF_Media, .ASF_JFIF_Media),
  (g_ASF_Language_List_Object, .ASF_Language_List_Object),
  (g_ASF_Media_Object_Index_Parameters_Object, .ASF_Media_Object_Index_Parameters_Object),
  (g_ASF_Metadata_Library_Object, .ASF_Metadata_Library_Object),
  (g_ASF_Metadata_Object, .ASF_Metadata_Object),
  (g_ASF_Mutex_Bitrate, .ASF_Mutex_Bitrate),
  (g_ASF_Mutex_Language, .ASF_Mutex_Language),
  (g_ASF_Mutex_Unknown, .ASF_Mutex_Unknown),
  (g_ASF_No_Error_Correction, .ASF_No_Error_Correction),
  (g_ASF_Payload_Extension_System_Content_Type, .ASF_Payload_Extension_System_Content_Type),
  (g_ASF_Payload_Extension_System_Encryption_Sample_ID, .ASF_Payload_Extension_System_Encryption_Sample_ID),
  (g_ASF_Payload_Extension_System_File_Name, .ASF_Payload_Extension_System_File_Name),
  (g_ASF_Payload_Extension_System_Pixel_Aspect_Ratio, .ASF_Payload_Extension_System_Pixel_Aspect_Ratio),
  (g_ASF_Payload_Extension_System_Sample_Duration, .ASF_Payload_Extension_System_Sample_Duration),
  (g_ASF_Payload_Extension_System_Timecode, .ASF_Payload_Extension_System_Timecode),
  (g_ASF_Reserved_1, .ASF_Reserved_1),
  (g_ASF_Reserved_2, .ASF_Reserved_2),
  (g_ASF_Reserved_3, .ASF_Reserved_3),
  (g_ASF_Reserved_4, .ASF_Reserved_4),
  (g_ASF_Stream_Prioritization_Object, .ASF_Stream_Prioritization_Object),
  (g_ASF_Timecode_Index_Parameters_Object, .ASF_Timecode_Index_Parameters_Object),
  (g_ASF_Video_Media, .ASF_Video_Media),
  (g_ASF_Web_Stream_Format, .ASF_Web_Stream_Format),
  (g_ASF_Web_Stream_Media_Subtype, .ASF_Web_Stream_Media_Subtype)]

/-- asf.hpp:218-282, the comparisons of `ASFTypeToString` in their order. -/
def nameTable : List (ASFType × Bytes) := [
  (.ASF_Advanced_Content_Encryption_Object, b!"ASF_Advanced_Content_Encryption_Object"),
  (.ASF_Advanced_Mutual_Exclusion_Object, b!"ASF_Advanced_Mutual_Exclusion_Object"),
  (.ASF_Audio_Media, b!"ASF_Audio_Media"),
  (.ASF_Audio_Spread, b!"ASF_Audio_Spread"),
  (.ASF_Bandwidth_Sharing_Exclusive, b!"ASF_Bandwidth_Sharing_Exclusive"),
  (.ASF_Bandwidth_Sharing_Object, b!"ASF_Bandwidth_Sharing_Object"),
  (.ASF_Bandwidth_Sharing_Partial, b!"ASF_Bandwidth_Sharing_Partial"),
  (.ASF_Binary_Media, b!"ASF_Binary_Media"),
  (.ASF_Bitrate_Mutual_Exclusion_Object, b!"ASF_Bitrate_Mutual_Exclusion_Object"),
  (.ASF_Codec_List_Object, b!"ASF_Codec_List_Object"),
  (.ASF_Command_Media, b!"ASF_Command_Media"),
  (.ASF_Compatibility_Object, b!"ASF_Compatibility_Object"),
  (.ASF_Content_Branding_Object, b!"ASF_Content_Branding_Object"),
  (.ASF_Content_Description_Object, b!"ASF_Content_Description_Object"),
  (.ASF_Content_Encryption_Object, b!"ASF_Content_Encryption_Object"),
  (.ASF_Content_Encryption_System_Windows_Media_DRM_Network_Devices, b!"ASF_Content_Encryption_System_Windows_Media_DRM_Network_Devices"),
  (.ASF_Data_Object, b!"ASF_Data_Object"),
  (.ASF_Degradable_JPEG_Media, b!"ASF_Degradable_JPEG_Media"),
  (.ASF_Digital_Signature_Object, b!"ASF_Digital_Signature_Object"),
  (.ASF_Error_Correction_Object, b!"ASF_Error_Correction_Object"),
  (.ASF_Extended_Content_Description_Object, b!"ASF_Extended_Content_Description_Object"),
  (.ASF_Extended_Content_Encryption_Object, b!"ASF_Extended_Content_Encryption_Object"),
  (.ASF_Extended_Stream_Properties_Object, b!"ASF_Extended_Stream_Properties_Object"),
  (.ASF_File_Properties_Object, b!"ASF_File_Properties_Object"),
  (.ASF_File_Transfer_Media, b!"ASF_File_Transfer_Media"),
  (.ASF_Group_Mutual_Exclusion_Object, b!"ASF_Group_Mutual_Exclusion_Object"),
  (.ASF_Header_Extension_Object, b!"ASF_Header_Extension_Object"),
  (.ASF_Header_Object, b!"ASF_Header_Object"),
  (.ASF_Index_Object, b!"ASF_Index_Object"),
  (.ASF_Index_Parameters_Object, b!"ASF_Index_Parameters_Object"),
  (.ASF_JFIF_Media, b!"ASF_JFIF_Media"),
  (.ASF_Language_List_Object, b!"ASF_Language_List_Object"),
  (.ASF_Marker_Object, b!"ASF_Marker_Object"),
  (.ASF_Media_Object_Index_Object, b!"ASF_Media_Object_Index_Object"),
  (.ASF_Media_Object_Index_Parameters_Object, b!"ASF_Media_Object_Index_Parameters_Object"),
  (.ASF_Metadata_Library_Object, b!"ASF_Metadata_Library_Object"),
  (.ASF_Metadata_Object, b!"ASF_Metadata_Object"),
  (.ASF_Mutex_Bitrate, b!"ASF_Mutex_Bitrate"),
  (.ASF_Mutex_Language, b!"ASF_Mutex_Language"),
  (.ASF_Mutex_Unknown, b!"ASF_Mutex_Unknown"),
  (.ASF_No_Error_Correction, b!"ASF_No_Error_Correction"),
  (.ASF_Padding_Object, b!"ASF_Padding_Object"),
  (.ASF_Payload_Extension_System_Content_Type, b!"ASF_Payload_Extension_System_Content_Type"),
  (.ASF_Payload_Extension_System_Encryption_Sample_ID, b!"ASF_Payload_Extension_System_Encryption_Sample_ID"),
  (.ASF_Payload_Extension_System_File_Name, b!"ASF_Payload_Extension_System_File_Name"),
  (.ASF_Payload_Extension_System_Pixel_Aspect_Ratio, b!"ASF_Payload_Extension_System_Pixel_Aspect_Ratio"),
  (.ASF_Payload_Extension_System_Sample_Duration, b!"ASF_Payload_Extension_System_Sample_Duration"),
  (.ASF_Payload_Extension_System_Timecode, b!"ASF_Payload_Extension_System_Timecode"),
  (.ASF_Reserved_1, b!"ASF_Reserved_1"),
  (.ASF_Reserved_2, b!"ASF_Reserved_2"),
  (.ASF_Reserved_3, b!"ASF_Reserved_3"),
  (.ASF_Reserved_4, b!"ASF_Reserved_4"),
  (.ASF_Script_Command_Object, b!"ASF_Script_Command_Object"),
  (.ASF_Simple_Index_Object, b!"ASF_Simple_Index_Object"),
  (.ASF_Stream_Bitrate_Properties_Object, b!"ASF_Stream_Bitrate_Properties_Object"),
  (.ASF_Stream_Prioritization_Object, b!"ASF_Stream_Prioritization_Object"),
  (.ASF_Stream_Properties_Object, b!"ASF_Stream_Properties_Object"),
  (.ASF_Timecode_Index_Object, b!"ASF_Timecode_Index_Object"),
  (.ASF_Timecode_Index_Parameters_Object, b!"ASF_Timecode_Index_Parameters_Object"),
  (.ASF_Video_Media, b!"ASF_Video_Media"),
  (.ASF_Web_Stream_Format, b!"ASF_Web_Stream_Format"),
  (.ASF_Web_Stream_Media_Subtype, b!"ASF_Web_Stream_Media_Subtype")]

end Fileid.Asf
