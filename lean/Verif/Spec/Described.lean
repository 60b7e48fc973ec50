import Verif.Spec.Bytes

/-!
# The list of file types that the project maintains, `fileid/data.xml`

The elements `Item` of the element `Items`, in order, with the text of each as it is written in that file. (`magic.h` is
made from this file by a script; the model has the table of `magic.h`.)
-/

namespace Fileid.Spec

/-- One file type. -/
structure Described where
  extension : Bytes
  name : Bytes
  version : Bytes
  offset : Nat
  signature : Bytes
  extra : Bytes
  deriving DecidableEq

/-- The value of a hexadecimal digit. -/
def hexDigit (c : UInt8) : Option Nat :=
  if 48 ≤ c ∧ c ≤ 57 then some (c.toNat - 48)
  else if 65 ≤ c ∧ c ≤ 70 then some (c.toNat - 55)
  else if 97 ≤ c ∧ c ≤ 102 then some (c.toNat - 87)
  else none

/-- Bytes written as `0x4D,0x5A`. -/
def hexBytes : Bytes → Option Bytes
  | [48, 120, a, b] => do
    let x ← hexDigit a
    let y ← hexDigit b
    some [UInt8.ofNat (16 * x + y)]
  | 48 :: 120 :: a :: b :: 44 :: rest => do
    let x ← hexDigit a
    let y ← hexDigit b
    let bs ← hexBytes rest
    some (UInt8.ofNat (16 * x + y) :: bs)
  | _ => none

/-- The bytes by which the type is known: given in hexadecimal digits, or else as they are. -/
def Described.bytes (d : Described) : Bytes := (hexBytes d.signature).getD d.signature

/-- data.xml, the element `Items`. -/
def described : List Described := [
  ⟨b!"exe", b!"DOS Executable", b!"", 0, b!"0x4D,0x5A", b!"Exec::Detailer"⟩,
  ⟨b!"elf", b!"ELF Executable", b!"", 0, b!"0x7F,0x45,0x4C,0x46", b!""⟩,
  ⟨b!"dex", b!"Dalvik Executable", b!"", 0, b!"0x64,0x65,0x78,0x0A,0x30,0x33", b!""⟩,
  ⟨b!"lib", b!"Microsoft Program Library Common Object File Format", b!"", 0, b!"0x21,0x3C,0x61,0x72,0x63,0x68,0x3E,0x0A", b!""⟩,
  ⟨b!"obj", b!"Microsoft Common Object File Format relocatable object code", b!"", 0, b!"0x4C,0x01", b!""⟩,
  ⟨b!"pdb", b!"Microsoft Program Database 2.0", b!"2", 0, b!"0x4D,0x69,0x63,0x72,0x6F,0x73,0x6F,0x66,0x74,0x20,0x43,0x2F,0x43,0x2B,0x2B,0x20,0x70,0x72,0x6F,0x67,0x72,0x61,0x6D,0x20,0x64,0x61,0x74,0x61,0x62,0x61,0x73,0x65,0x20,0x32,0x2E,0x30,0x30,0x0D,0x0A", b!""⟩,
  ⟨b!"pdb", b!"Microsoft Program Database 7.0", b!"7", 0, b!"0x4D,0x69,0x63,0x72,0x6F,0x73,0x6F,0x66,0x74,0x20,0x43,0x2F,0x43,0x2B,0x2B,0x20,0x4D,0x53,0x46,0x20,0x37,0x2E,0x30,0x30,0x0D,0x0A,0x1A,0x44,0x53", b!""⟩,
  ⟨b!"o", b!"Mach-O Executable", b!"32-bit, big-endian", 0, b!"0xfe,0xed,0xfa,0xce", b!"Exec::MachO::Detailer"⟩,
  ⟨b!"o", b!"Mach-O Executable", b!"32-bit, little-endian", 0, b!"0xce,0xfa,0xed,0xfe", b!"Exec::MachO::Detailer"⟩,
  ⟨b!"o", b!"Mach-O Executable", b!"64-bit, big-endian", 0, b!"0xfe,0xed,0xfa,0xcf", b!"Exec::MachO::Detailer"⟩,
  ⟨b!"o", b!"Mach-O Executable", b!"64-bit, little-endian", 0, b!"0xcf,0xfa,0xed,0xfe", b!"Exec::MachO::Detailer"⟩,
  ⟨b!"class", b!"Java Class File", b!"", 0, b!"0xCA,0xFE,0xBA,0xBE", b!""⟩,
  ⟨b!"zip", b!"Zip Archive", b!"", 0, b!"0x50,0x4B", b!"zip::Detailer"⟩,
  ⟨b!"rar", b!"Rar Archive", b!"", 0, b!"0x52,0x61,0x72,0x21,0x1A,0x07", b!""⟩,
  ⟨b!"7z", b!"7z Archive", b!"", 0, b!"0x37,0x7A,0xBC,0xAF,0x27,0x1C", b!""⟩,
  ⟨b!"tar.z", b!"Tar.Zip Container", b!"LZW Compression", 0, b!"0x1F,0x9D", b!""⟩,
  ⟨b!"tar.z", b!"Tar.Zip Container", b!"LZH Compression", 0, b!"0x1f,0xA0", b!""⟩,
  ⟨b!"bz2", b!"BZip2 Container", b!"", 0, b!"0x42,0x5A,0x68", b!""⟩,
  ⟨b!"tar", b!"TAR Container", b!"", 257, b!"ustar", b!""⟩,
  ⟨b!"tar", b!"Tar Archive", b!"", 0, b!"0x75,0x73,0x74,0x61,0x72", b!""⟩,
  ⟨b!"gz", b!"GZIP Archive", b!"", 0, b!"0x1F,0x8B", b!""⟩,
  ⟨b!"cab", b!"Microsoft Cabinet file", b!"", 0, b!"0x4D,0x53,0x43,0x46", b!""⟩,
  ⟨b!"lha", b!"LHArc (lha/lzh) Archive", b!"", 2, b!"0x2D,0x6C,0x68", b!""⟩,
  ⟨b!"vhd", b!"Microsoft Virtual HardDisk", b!"", 0, b!"0x63,0x6F,0x6E,0x65,0x63,0x74,0x69,0x78", b!""⟩,
  ⟨b!"vhdx", b!"Microsoft Virtual HardDisk v2", b!"", 0, b!"vhdxfile", b!""⟩,
  ⟨b!"xz", b!"XZ Compressed File", b!"", 0, b!"0xFD,0x37,0x7A,0x58,0x5A,0x00", b!""⟩,
  ⟨b!"iso", b!"ISO 9660 Disk Image", b!"", 32769, b!"0x43,0x44,0x30,0x30,0x31", b!""⟩,
  ⟨b!"iso", b!"ISO 9660 Disk Image", b!"", 34817, b!"0x43,0x44,0x30,0x30,0x31", b!""⟩,
  ⟨b!"iso", b!"ISO 9660 Disk Image", b!"", 36864, b!"0x43,0x44,0x30,0x30,0x31", b!""⟩,
  ⟨b!"iso", b!"Universal Disk Format (ISO 13490/Ecma-168) - Beginning Extended Area Descriptor", b!"", 32769, b!"BEA01", b!""⟩,
  ⟨b!"iso", b!"Universal Disk Format (ISO 13490/Ecma-168) - Boot Descriptor", b!"", 32769, b!"BOOT2", b!""⟩,
  ⟨b!"iso", b!"Universal Disk Format (ISO 13490/Ecma-168) - CD001 - ECMA-119", b!"", 32769, b!"CD001", b!""⟩,
  ⟨b!"iso", b!"Universal Disk Format (ISO 13490/Ecma-168) - Volume Descriptor", b!"", 32769, b!"CDW02", b!""⟩,
  ⟨b!"iso", b!"Universal Disk Format (ISO 13490/Ecma-168) - NSR02 - ECMA-168", b!"", 32769, b!"NSR02", b!""⟩,
  ⟨b!"iso", b!"Universal Disk Format (ISO 13490/Ecma-168) - NSR03 - ECMA-167", b!"", 32769, b!"NSR03", b!""⟩,
  ⟨b!"iso", b!"Universal Disk Format (ISO 13490/Ecma-168) - Terminating Extended Area Descriptor", b!"", 32769, b!"TEA01", b!""⟩,
  ⟨b!"vmdk", b!"VMWare Virtual Disk", b!"", 0, b!"0x4B,0x44,0x4D", b!""⟩,
  ⟨b!"pcap", b!"Network Packet Capture File", b!"", 0, b!"0xD4,0xC3,0xB2,0xA1", b!""⟩,
  ⟨b!"pcap", b!"Network Packet Capture File", b!"Nanosecond-precision timestamps", 0, b!"0x4D,0x3C,0xB2,0xA1", b!""⟩,
  ⟨b!"rpm", b!"Red Hat Package Manager File", b!"", 0, b!"0xED,0xAB,0xEE,0xDB", b!""⟩,
  ⟨b!"_", b!"MS-DOS Installtion Compressed File", b!"SZDD", 0, b!"0x53,0x5A,0x44,0x44,0x88,0xF0,0x27,0x33", b!""⟩,
  ⟨b!"_", b!"MS-DOS Installtion Compressed File", b!"KWAJ", 0, b!"0x4B,0x57,0x41,0x4A,0x88,0xF0,0x27,0xD1", b!""⟩,
  ⟨b!"_", b!"MS-DOS Installtion Compressed File", b!"QBasic SZDD", 0, b!"0x53,0x5A,0x20,0x88,0xF0,0x27,0x33,0xD1", b!""⟩,
  ⟨b!"sdi", b!"Microsoft System Deployment Image", b!"", 0, b!"$SDI0001", b!""⟩,
  ⟨b!"wim", b!"Windows Imaging File Format", b!"", 0, b!"0x4D,0x53,0x57,0x49,0x4D,0x00,0x00", b!""⟩,
  ⟨b!"ace", b!"ACE Archive", b!"", 7, b!"**ACE**", b!""⟩,
  ⟨b!"ace", b!"ACE Archive", b!"", 0, b!"**ACE**", b!""⟩,
  ⟨b!"ico", b!"Icon File", b!"", 0, b!"0x00,0x00,0x01,0x00", b!""⟩,
  ⟨b!"gif", b!"GIF Image", b!"GIF87a", 0, b!"0x47,0x49,0x46,0x38,0x37,0x61", b!""⟩,
  ⟨b!"gif", b!"GIF Image", b!"GIF89a", 0, b!"0x47,0x49,0x46,0x38,0x39,0x61", b!""⟩,
  ⟨b!"tiff", b!"Tagged Image File", b!"little endian", 0, b!"0x49,0x49,0x2A,0x00", b!""⟩,
  ⟨b!"tiff", b!"Tagged Image File", b!"big endian", 0, b!"0x4D,0x4D,0x00,0x2A", b!""⟩,
  ⟨b!"jpg", b!"JPEG Image", b!"", 0, b!"0xFF,0xD8", b!"media::jpeg::Detailer"⟩,
  ⟨b!"png", b!"Portable Network Graphics", b!"", 0, b!"0x89,0x50,0x4E,0x47,0x0D,0x0A,0x1A,0x0A", b!""⟩,
  ⟨b!"bmp", b!"Bitmap Image", b!"", 0, b!"0x42,0x4D", b!""⟩,
  ⟨b!"cur", b!"Cursor", b!"", 0, b!"0x00,0x00,0x02,0x00", b!""⟩,
  ⟨b!"bmp", b!"Bitmap Image", b!"OS/2 Array", 0, b!"0x42,0x41", b!""⟩,
  ⟨b!"bmp", b!"Bitmap Image", b!"OS/2 Color Icon", 0, b!"0x43,0x49", b!""⟩,
  ⟨b!"bmp", b!"Bitmap Image", b!"OS/2 Color Pointer", 0, b!"0x43,0x50", b!""⟩,
  ⟨b!"bmp", b!" Bitmap Icon", b!"OS/2 Icon", 0, b!"0x49,0x43", b!""⟩,
  ⟨b!"bmp", b!"Bitmap Image", b!"OS/2 Pointer", 0, b!"0x50,0x54", b!""⟩,
  ⟨b!"psp", b!"Corel Paint Shop Pro Image file", b!"", 0, b!"0x50,0x61,0x69,0x6E,0x74,0x20,0x53,0x68,0x6F,0x70,0x20,0x50,0x72,0x6F,0x20,0x49,0x6D,0x61,0x67,0x65,0x20,0x46,0x69,0x6C,0x65", b!""⟩,
  ⟨b!"jbf", b!"Corel Paint Shop Pro browse file", b!"", 0, b!"0x4A,0x41,0x53,0x43,0x20,0x42,0x52,0x4F,0x57,0x53,0x20,0x46,0x49,0x4C,0x45", b!""⟩,
  ⟨b!"emf", b!"Microsoft Enchanced Metafile", b!"", 41, b!"EMF", b!""⟩,
  ⟨b!"eps", b!"Encapsulated PostScript", b!"", 41, b!"EPSF", b!""⟩,
  ⟨b!"oless", b!"OLE Structured Storage", b!"", 0, b!"0xD0,0xCF,0x11,0xE0", b!"oless::Detailer"⟩,
  ⟨b!"ps", b!"PostScript document", b!"", 0, b!"0x25,0x21,0x50,0x53", b!""⟩,
  ⟨b!"pdf", b!"PDF document", b!"", 0, b!"0x25,0x50,0x44,0x46", b!""⟩,
  ⟨b!"db", b!"SQLLite Database File", b!"", 0, b!"0x53,0x51,0x4C,0x69,0x74,0x65,0x20,0x66,0x6F,0x72,0x6D,0x61,0x74,0x20,0x33,0x00", b!""⟩,
  ⟨b!"dwg", b!"Autocad Drawing", b!"", 0, b!"0x41,0x43,0x31,0x30", b!"document::dwg::DwgHelper"⟩,
  ⟨b!"lnk", b!"LNK File", b!"", 0, b!"0x4C,0x00,0x00,0x00,0x01,0x14,0x02,0x00,0x00,0x00,0x00,0x00,0xC0,0x00,0x00,0x00,0x00,0x00,0x00,0x46", b!""⟩,
  ⟨b!"xls", b!"Microsoft Excel", b!"BIFF2", 0, b!"0x09,0x00", b!""⟩,
  ⟨b!"xls", b!"Microsoft Excel", b!"BIFF3", 0, b!"0x09,0x02", b!""⟩,
  ⟨b!"xls", b!"Microsoft Excel", b!"BIFF4", 0, b!"0x09,0x04", b!""⟩,
  ⟨b!"ppt", b!"Microsoft Powerpoint", b!"PPT95", 0, b!"0x4D,0x69,0x63,0x72,0x6F,0x73,0x6F,0x66,0x74,0x20,0x28,0x52,0x29,0x20,0x50,0x6F,0x77,0x65,0x72,0x50,0x6F,0x69,0x6E,0x74,0x20,0x28,0x52,0x29,0x20,0x57,0x69,0x6E,0x64,0x6F,0x77,0x73,0x20,0x20", b!""⟩,
  ⟨b!"ppt", b!"Microsoft Powerpoint", b!"PPT3", 0, b!"0xED,0xDE,0xAD,0x0B", b!""⟩,
  ⟨b!"ppt", b!"Microsoft Powerpoint", b!"PPT3 Swap", 0, b!"0x0B,0xAD,0xDE,0xED", b!""⟩,
  ⟨b!"mdb", b!"Microsoft Access Database", b!"MDB_System", 0, b!"0x00,0x01,0x00,0x00,0x4A,0x65,0x74,0x20,0x53,0x79,0x73,0x74,0x65,0x6D,0x20,0x44,0x42,0x20,0x20", b!""⟩,
  ⟨b!"mdb", b!"Microsoft Access Database", b!"MDB_Standard", 0, b!"0x00,0x01,0x00,0x00,0x53,0x74,0x61,0x6E,0x64,0x61,0x72,0x64,0x20,0x4A,0x65,0x74,0x20,0x44,0x42", b!""⟩,
  ⟨b!"mdb", b!"Microsoft Access Database", b!"MDB_Temp", 0, b!"0x00,0x01,0x00,0x00,0x54,0x65,0x6D,0x70,0x20,0x4A,0x65,0x74,0x20,0x44,0x42,0x20,0x20,0x20,0x20", b!""⟩,
  ⟨b!"accdb", b!"Microsoft Access Database", b!"ACCDB_System", 0, b!"0x00,0x01,0x00,0x00,0x41,0x43,0x45,0x20,0x53,0x79,0x73,0x74,0x65,0x6D,0x20,0x44,0x42,0x20,0x20", b!""⟩,
  ⟨b!"accdb", b!"Microsoft Access Database", b!"ACCDB_Standard", 0, b!"0x00,0x01,0x00,0x00,0x53,0x74,0x61,0x6E,0x64,0x61,0x72,0x64,0x20,0x41,0x43,0x45,0x20,0x44,0x42", b!""⟩,
  ⟨b!"accdb", b!"Microsoft Access Database", b!"ACCDB_Temp", 0, b!"0x00,0x01,0x00,0x00,0x54,0x65,0x6D,0x70,0x20,0x41,0x43,0x45,0x20,0x44,0x42,0x20,0x20,0x20,0x20", b!""⟩,
  ⟨b!"one", b!"Microsoft OneNote", b!"", 0, b!"0xE4,0x52,0x5C,0x7B,0x8C,0xD8,0xA7,0x4D,0xAE,0xB1,0x53,0x78,0xD0,0x29,0x96,0xD3", b!""⟩,
  ⟨b!"onetoc2", b!"Microsoft OneNote Table of Contents", b!"", 0, b!"0xA1,0x2F,0xFF,0x43,0xD9,0xEF,0x76,0x4C,0x9E,0xE2,0x10,0xEA,0x57,0x22,0x76,0x5F", b!""⟩,
  ⟨b!"pst", b!"Microsoft Outlook Personal Storage Table", b!"", 0, b!"0x21,0x42,0x44,0x4E", b!""⟩,
  ⟨b!"wab", b!"Microsoft Outlook Address File", b!"", 0, b!"0x9C,0xCB,0xCB,0x8D,0x13,0x75,0xD2,0x11,0x91,0x58,0x00,0xC0,0x4F,0x79,0x56,0xA4", b!""⟩,
  ⟨b!"chm", b!"Complied Help File", b!"", 0, b!"0x49,0x54,0x53,0x46", b!""⟩,
  ⟨b!"dmp", b!"Windows Dump File", b!"32-bit", 0, b!"0x50,0x41,0x47,0x45,0x44,0x55,0x4D,0x50", b!""⟩,
  ⟨b!"dmp", b!"Windows Dump File", b!"64-bit", 0, b!"0x50,0x41,0x47,0x45,0x44,0x55,0x36,0x34", b!""⟩,
  ⟨b!"hdmp", b!"Windows Dump File", b!"with heap", 0, b!"0x4D,0x44,0x4D,0x50,0x93,0xA7", b!""⟩,
  ⟨b!"rtf", b!"Rich Text Format", b!"", 0, b!"0x7B,0x5C,0x72,0x74,0x66", b!""⟩,
  ⟨b!"rtf", b!"Rich Text ormat (missing F)", b!"", 0, b!"0x7B,0x5C,0x72,0x74", b!""⟩,
  ⟨b!"skp", b!"SketchUp Model", b!"", 0, b!"0xFF,0xFE,0xFF,0x0E,0x53,0x00,0x6B,0x00,0x65,0x00,0x74,0x00,0x63,0x00,0x68,0x00,0x55,0x00,0x70,0x00,0x20,0x00,0x4D,0x00,0x6F,0x00,0x64,0x00,0x65,0x00,0x6C,0x00", b!""⟩,
  ⟨b!"mdi", b!"Microsoft Office Document Imaging", b!"", 0, b!"0x45,0x50,0x2a,0x00", b!""⟩,
  ⟨b!"hlp", b!"Microsoft Help File", b!"", 0, b!"0x3f,0x5f,0x03,0x00", b!""⟩,
  ⟨b!"hlp", b!"Ubuntu Help File", b!"", 0, b!"0x04,0x12,0x46,0x31,0x14", b!""⟩,
  ⟨b!"doc", b!"Microsoft Word for Macintosh 1.0", b!"1", 0, b!"0xfe,0x32,0x00", b!""⟩,
  ⟨b!"doc", b!"Microsoft Word for Macintosh 2.0", b!"2", 0, b!"0xfe,0x33,0x00", b!""⟩,
  ⟨b!"doc", b!"Microsoft Word for Macintosh 3.0", b!"3", 0, b!"0xfe,0x34,0x00", b!""⟩,
  ⟨b!"doc", b!"Microsoft Word for Macintosh 4.0", b!"4", 0, b!"0xfe,0x37,0x00,0x1c,0x00,0x00,0x00,0x00", b!""⟩,
  ⟨b!"doc", b!"Microsoft Word for Macintosh 5.0", b!"5", 0, b!"0xfe,0x37,0x00,0x23,0x00,0x00,0x00,0x00", b!""⟩,
  ⟨b!"doc", b!"Microsoft PC Word", b!"3", 0, b!"0xbe,0x31", b!""⟩,
  ⟨b!"doc", b!"Microsoft Word OLD", b!"", 0, b!"0x9B,0xA5", b!""⟩,
  ⟨b!"doc", b!"Microsoft Word OLD", b!"", 0, b!"0x9C,0xA5", b!""⟩,
  ⟨b!"doc", b!"Microsoft Word OLD (MP 2.0)", b!"", 0, b!"0x08,0xEC", b!""⟩,
  ⟨b!"doc", b!"Microsoft Word OLD (MP 3.0)", b!"", 0, b!"0x08,0xED", b!""⟩,
  ⟨b!"doc", b!"Microsoft WinWord 2.0", b!"", 0, b!"0xDB,0xA5", b!""⟩,
  ⟨b!"wri", b!"MS Write", b!"1", 0, b!"0x31,0xBE", b!""⟩,
  ⟨b!"wri", b!"MS Write", b!"2", 0, b!"0x32,0xBE", b!""⟩,
  ⟨b!"wri", b!"MS Write", b!"3", 0, b!"0xBE,0x00,0x00,0x00,0xAB", b!""⟩,
  ⟨b!"wps", b!"Microsoft Works (1-4)", b!"", 0, b!"0x01,0xFE", b!""⟩,
  ⟨b!"wp5", b!"WordPerfect File", b!"5", 0, b!"0xFF,0x57,0x50,0x43", b!"document::wp::Detailer"⟩,
  ⟨b!"wp", b!"WordPerfect Encrypted File", b!"encrypted", 0, b!"0xff,0xff,0x61,0x61", b!"document::wp::Detailer"⟩,
  ⟨b!"mp4", b!"Mp4 Container", b!"", 4, b!"0x66,0x74,0x79,0x70", b!"media::mp4::Detailer"⟩,
  ⟨b!"asf", b!"ASF Container", b!"", 0, b!"0x30,0x26,0xB2,0x75,0x8E,0x66,0xCF,0x11,0xA6,0xD9,0x00,0xAA,0x00,0x62,0xCE,0x6C", b!"media::asf::Detailer"⟩,
  ⟨b!"riff", b!"Riff file", b!"", 0, b!"0x52,0x49,0x46,0x46", b!"media::riff::RIFFHelper"⟩,
  ⟨b!"mp3", b!"MPEG-1 Layer 3 file", b!"", 0, b!"0xFF,0xFB", b!""⟩,
  ⟨b!"mp3", b!"MPEG-1 Layer 3 file", b!"ID3v2 Tag", 0, b!"0x49,0x44,0x33", b!""⟩,
  ⟨b!"flv", b!"Flash Video", b!"", 0, b!"0x46,0x4C,0x56", b!""⟩,
  ⟨b!"swf", b!"Shockwave Flash File", b!"", 0, b!"0x46,0x57,0x53", b!""⟩,
  ⟨b!"swf", b!"Shockwave Flash File", b!"compressed", 0, b!"0x43,0x57,0x53", b!""⟩,
  ⟨b!"flac", b!"Free Lossless Audio Codec", b!"", 0, b!"0x66,0x4C,0x61,0x43", b!""⟩,
  ⟨b!"midi", b!"MIDI Sound File", b!"", 0, b!"0x4D,0x54,0x68,0x64", b!""⟩,
  ⟨b!"woff", b!"Web Open Font Format", b!"1.0", 0, b!"0x77,0x4f,0x46,0x46", b!""⟩,
  ⟨b!"woff", b!"Web Open Font Format", b!"2.0", 0, b!"0x77,0x4f,0x46,0x32", b!""⟩,
  ⟨b!"otf", b!"Open Type Font", b!"", 0, b!"OTTO", b!""⟩,
  ⟨b!"pfm", b!"Postscript Font", b!"type1", 0, b!"typ1", b!""⟩,
  ⟨b!"ttf", b!"True Type Font", b!"OSx", 0, b!"true", b!""⟩,
  ⟨b!"ttf", b!"True Type Font", b!"windows", 0, b!"0x00,0x01,0x00,0x00", b!""⟩,
  ⟨b!"sh", b!"*nix shebang script", b!"", 0, b!"0x23,0x21", b!""⟩,
  ⟨b!"xml", b!"XML", b!"ascii lowercase", 0, b!"0x3C,0x3F,0x78,0x6D,0x6C", b!""⟩,
  ⟨b!"xml", b!"XML", b!"ascii uppercase", 0, b!"0x3C,0x3F,0x58,0x4D,0x4C", b!""⟩,
  ⟨b!"xml", b!"XML", b!"utf8 lowercase", 0, b!"0xEF,0xBB,0xBF,0x3C,0x3F,0x78,0x6D,0x6C", b!""⟩,
  ⟨b!"xml", b!"XML", b!"utf8 uppercase", 0, b!"0xEF,0xBB,0xBF,0x3C,0x3F,0x58,0x4D,0x4C", b!""⟩,
  ⟨b!"xml", b!"XML", b!"unicode lowercase", 0, b!"0xFF,0xFE,0x3C,0x00,0x3F,0x00,0x78,0x00,0x6D,0x00,0x6C,0x00", b!""⟩,
  ⟨b!"xml", b!"XML", b!"unicode uppercase", 0, b!"0xFF,0xFE,0x3C,0x00,0x3F,0x00,0x58,0x00,0x4D,0x00,0x4C,0x00", b!""⟩,
  ⟨b!"html", b!"HTML Document", b!"ascii lowercase html", 0, b!"0x3C,0x68,0x74,0x6D,0x6C", b!""⟩,
  ⟨b!"html", b!"HTML Document", b!"ascii lowercase doctype", 0, b!"0x3C,0x21,0x64,0x6F,0x63", b!""⟩,
  ⟨b!"html", b!"HTML Document", b!"unicode lowercase html", 0, b!"0xFF,0xFE,0x3C,0x00,0x68,0x00,0x74,0x00,0x6D,0x00,0x6C,0x00", b!""⟩,
  ⟨b!"html", b!"HTML Document", b!"unicode lowercase doctype", 0, b!"0xFF,0xFE,0x3C,0x00,0x21,0x00,0x64,0x00,0x6F,0x00,0x63,0x00", b!""⟩,
  ⟨b!"html", b!"HTML Document", b!"ascii uppercase html", 0, b!"0x3C,0x48,0x54,0x4d,0x4c", b!""⟩,
  ⟨b!"html", b!"HTML Document", b!"ascii uppercase doctype", 0, b!"0x3C,0x21,0x44,0x4f,0x43", b!""⟩,
  ⟨b!"html", b!"HTML Document", b!"unicode uppercase html", 0, b!"0xFF,0xFE,0x3C,0x00,0x48,0x00,0x54,0x00,0x4D,0x00,0x4C,0x00", b!""⟩,
  ⟨b!"html", b!"HTML Document", b!"unicode uppercase doctype", 0, b!"0xFF,0xFE,0x3C,0x00,0x21,0x00,0x44,0x00,0x4F,0x00,0x43,0x00", b!""⟩,
  ⟨b!"html", b!"HTML Document", b!"utf8 lowercase html", 0, b!"0xEF,0xBB,0xBF,0x3C,0x68,0x74,0x6D,0x6C", b!""⟩,
  ⟨b!"html", b!"HTML Document", b!"utf8 lowercase doctype", 0, b!"0xEF,0xBB,0xBF,0x3C,0x21,0x64,0x6F,0x63", b!""⟩,
  ⟨b!"html", b!"HTML Document", b!"utf8 uppercase html", 0, b!"0xEF,0xBB,0xBF,0x3C,0x48,0x54,0x4d,0x4c", b!""⟩,
  ⟨b!"html", b!"HTML Document", b!"utf8 uppercase doctype", 0, b!"0xEF,0xBB,0xBF,0x3C,0x21,0x44,0x4f,0x43", b!""⟩,
  ⟨b!"slk", b!"Microsoft SYLK (Symbolic Link) file", b!"", 0, b!"ID;P", b!""⟩,
  ⟨b!"vbe", b!"Microsoft Encoded Script (JScript.Encoded)", b!"", 0, b!"0x23,0x40,0x7E,0x5E", b!""⟩]

end Fileid.Spec
