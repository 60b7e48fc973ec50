{"id": "C01", "title": "Signature match is exact", "statement": "The signature check answers yes exactly when the whole signature occurs in the buffer at the given offset; a buffer that ends before the signature does is a non-match, and no byte outside either buffer is read.", "quantifier": "every buffer, every signature, every 32-bit offset (including offsets past the end)", "why_tests_cant": "The buffer, signature and offset spaces are unbounded; the boundary between 'truncated' and 'match' must be right at every length.", "anchors": ["fileid/common.hpp: checkMagic"]}
{"id": "C02", "title": "Identification is sound, complete and ordered", "statement": "For a readable file shorter than 4 GiB the reported list consists, in signature-table order, of exactly the entries of the table whose signature occurs in the file at the entry's offset (an entry without a detail extractor contributes one item carrying its extension, name and version text; an entry with one contributes what the extractor returns), and of nothing else.", "quantifier": "every file content of length below 2^32 and every behaviour of the detail extractors", "why_tests_cant": "Any file is a possible input; soundness and completeness speak about all of them and about all 151 table entries at once.", "anchors": ["fileid/fileid.cpp: guessExtension", "fileid/fileid.cpp: getMinimumBufferSize", "fileid/magic.h: initList", "fileid/common.hpp: checkMagic", "fileid/common.hpp: readFile"]}
{"id": "C03", "title": "The read-ahead window covers every signature", "statement": "The number of bytes read for identification is a power of two, at least 512, and not smaller than offset+size of any table entry; the rounding helper returns the least power of two not below its argument for every argument in 1..2^31.", "quantifier": "every 32-bit argument of the rounding helper; every signature table whose entries end at or below 2^31", "why_tests_cant": "The bit trick must hold for all 2^32 arguments, and the window for every table produced by the generator, not just today's.", "anchors": ["fileid/fileid.cpp: roundUpPowerOfTwo", "fileid/fileid.cpp: getMinimumBufferSize"]}
{"id": "C04", "title": "Every run reports at least one item, and the fallback only when nothing matched", "statement": "The command reports at least one item for every file; the fallback item (unknown or empty) appears exactly when identification returned no item and then it is the only item.", "quantifier": "every file content, readable or not, every output format argument", "why_tests_cant": "Quantifies over every file and all outcomes of identification.", "anchors": ["fileid/fileid.cpp: main", "fileid/fileid.cpp: guessExtension", "fileid/fileid.cpp: UnknownExtension"]}
{"id": "C05", "title": "'Empty File' is reported exactly for files without bytes", "statement": "The item with extension 'empty' is reported if and only if the file exists, is readable and holds zero bytes.", "quantifier": "every file state: absent, unreadable, readable with any length", "why_tests_cant": "File lengths up to and beyond 2^32 cannot be enumerated; the wrap-around of the 32-bit size only shows on multi-gigabyte files.", "anchors": ["fileid/fileid.cpp: UnknownExtension", "fileid/common.hpp: readFile"]}
{"id": "C06", "title": "Reading a file prefix is faithful", "statement": "Reading at most max bytes of a file returns precisely the first min(max, file length) bytes of the file, and an empty buffer for a file that cannot be opened.", "quantifier": "every file content and every limit", "why_tests_cant": "All contents, lengths and limits; the length is narrowed to 32 bits on the way.", "anchors": ["fileid/common.hpp: readFile"]}
{"id": "C07", "title": "Identification does not depend on earlier identifications", "statement": "Asking for the same file again in the same process gives the same list as the first time.", "quantifier": "every file content and every number of earlier calls", "why_tests_cant": "The defect, if any, is in hidden global state and grows with the length of the call history.", "anchors": ["fileid/magic.h: list, initList", "fileid/fileid.cpp: guessExtension"]}
{"id": "C08", "title": "Hex dump is lossless", "statement": "The hex dump of a byte sequence has exactly two lower-case hex digits per byte and decodes to the original bytes; different byte sequences give different dumps.", "quantifier": "every byte sequence", "why_tests_cant": "Unbounded input length.", "anchors": ["fileid/common.hpp: bin2hex11"]}
{"id": "C09", "title": "Fixed-width hex numbers are lossless", "statement": "A number printed as a hex constant starts with 0x, has exactly 2*sizeof digits, and reads back as the same number.", "quantifier": "every value of each unsigned type width", "why_tests_cant": "2^32 or 2^64 values.", "anchors": ["fileid/common.hpp: int_to_hex"]}
{"id": "C10", "title": "JSON escaping is safe and lossless", "statement": "For every byte string the escaped text is a legal body of a JSON string literal made of ASCII characters, and a JSON reader recovers from it the original bytes (each as the code point of the same value).", "quantifier": "every byte string, including embedded NULs, quotes, backslashes, control and high bytes", "why_tests_cant": "All byte strings; escapes interact (backslash followed by quote).", "anchors": ["fileid/common.hpp: JsonEscape"]}
{"id": "C11", "title": "XML escaping is safe", "statement": "For every byte string the escaped text contains none of the characters < > double-quote or apostrophe, every ampersand in it starts a numeric character reference, and every byte of it is printable ASCII.", "quantifier": "every byte string", "why_tests_cant": "All byte strings.", "anchors": ["fileid/common.hpp: XmlEscape"]}
{"id": "C12", "title": "XML escaping is lossless", "statement": "Resolving the numeric character references of the escaped text gives back the original bytes.", "quantifier": "every byte string", "why_tests_cant": "All byte strings; a swapped pair of entities is invisible unless the decoded value is compared.", "anchors": ["fileid/common.hpp: XmlEscape"]}
{"id": "C13", "title": "Trimming removes exactly the outer run", "statement": "Left, right and two-sided trimming remove the longest prefix and/or suffix made of the given characters and nothing else; trimming twice equals trimming once; a string made only of such characters becomes empty.", "quantifier": "every string and every character set", "why_tests_cant": "Unbounded strings and sets, including the all-trimmable string where the search returns npos.", "anchors": ["fileid/common.hpp: ltrim", "fileid/common.hpp: rtrim", "fileid/common.hpp: trim"]}
{"id": "C14", "title": "Removing NULs keeps every other byte in order", "statement": "The result holds exactly the non-NUL bytes of the input, in order.", "quantifier": "every byte string", "why_tests_cant": "Unbounded length.", "anchors": ["fileid/common.hpp: erasenulls"]}
{"id": "C15", "title": "Case-insensitive comparison", "statement": "Two strings compare equal exactly when they have the same length and their characters agree after ASCII lower-casing; the relation is an equivalence. For wide strings the same holds for the wide characters.", "quantifier": "every pair (triple) of strings, narrow and wide", "why_tests_cant": "All pairs of strings and all code points.", "anchors": ["fileid/common.hpp: iequals"]}
{"id": "C16", "title": "Duration text denotes the duration", "statement": "The text printed for a duration of 100-nanosecond ticks reads back (hours, minutes, seconds, optional six-digit fraction) as exactly the number of whole microseconds, with minutes and seconds below 60, and the fraction is printed exactly when it is non-zero.", "quantifier": "every 64-bit tick count", "why_tests_cant": "2^64 values.", "anchors": ["fileid/common.hpp: displayDuration"]}
{"id": "C17", "title": "Timestamp text denotes the instant", "statement": "For every FILETIME the printed date and time is the proleptic-Gregorian UTC date and time that many 100ns ticks after 1601-01-01 00:00:00 (truncated to seconds).", "quantifier": "every 64-bit FILETIME", "why_tests_cant": "2^64 instants, leap-year and epoch boundaries.", "anchors": ["fileid/common.hpp: convertFILETIME", "fileid/common.hpp: FileTimeToString"]}
{"id": "C18", "title": "Bounded integer reads never leave the buffer", "statement": "A read of a 2- or 4-byte integer at an offset either returns the value of bytes inside the buffer or raises a range error; it never reads outside.", "quantifier": "every buffer, every declared size not above the real one, every 32-bit offset", "why_tests_cant": "The off-by-one and wrap-around offsets are isolated points in a 2^32 space and out-of-bounds reads usually go unnoticed.", "anchors": ["fileid/common.hpp: ReadUShort", "fileid/common.hpp: ReadSShort", "fileid/common.hpp: ReadUInt", "fileid/common.hpp: ReadSInt"]}
{"id": "C19", "title": "Integer reads honour the requested byte order", "statement": "With the big-endian flag the integer is decoded most significant byte first, without it least significant byte first, for 2- and 4-byte, signed and unsigned reads.", "quantifier": "every buffer, in-range offset and both flags", "why_tests_cant": "All byte contents; palindromic test data cannot tell the orders apart.", "anchors": ["fileid/common.hpp: ReadUShort", "fileid/common.hpp: ReadSShort", "fileid/common.hpp: ReadUInt", "fileid/common.hpp: ReadSInt"]}
{"id": "C20", "title": "Length-checked string reads never leave the buffer", "statement": "Reading strLength bytes at offset returns exactly those bytes when they lie in the buffer and raises a range error otherwise.", "quantifier": "every buffer, every 32-bit offset and length", "why_tests_cant": "The guard adds two 32-bit numbers; the wrapping pairs are unreachable by ordinary tests.", "anchors": ["fileid/common.hpp: ReadString", "fileid/common.hpp: ReadWString"]}
{"id": "C21", "title": "Eight-byte reads are exact and safe", "statement": "Reading a 64-bit integer returns the little-endian value of the eight bytes at the offset when they lie in the buffer and raises a range error otherwise; it never reads outside. The same for the native unsigned long at its own width.", "quantifier": "every buffer, every 32-bit offset, both widths of unsigned long", "why_tests_cant": "All offsets up to 2^32-1 and all contents.", "anchors": ["fileid/common.hpp: ReadULongLong", "fileid/common.hpp: ReadULong"]}
{"id": "C22", "title": "GUID comparison is equality", "statement": "Two 16-byte identifiers compare equal exactly when all sixteen bytes agree, and no byte beyond the sixteenth is consulted.", "quantifier": "every pair of 16-byte arrays", "why_tests_cant": "2^256 pairs.", "anchors": ["fileid/common.hpp: VerifyGuids"]}
{"id": "C23", "title": "Bit-field extraction", "statement": "Extracting n bits starting at 1-based position k from a byte yields the number formed by those bits, for every in-range n and k; position 0 is outside the function's domain.", "quantifier": "every byte, every count up to 30, every position from 1", "why_tests_cant": "All combinations, and the undefined shift at position 0.", "anchors": ["fileid/common.hpp: ExtractBits"]}
{"id": "C24", "title": "Output-format argument", "statement": "The format names advertised by the usage text (TEXT, CSV, JSON, XML) select the corresponding output; any other argument selects text.", "quantifier": "every argument string", "why_tests_cant": "The set of arguments is unbounded.", "anchors": ["fileid/common.hpp: ParseOutputFormat", "README.md: Usage"]}
{"id": "C25", "title": "JSON output is one well-formed JSON document", "statement": "For every file name and every list of generic or unknown items the JSON output is a single well-formed JSON object with the members name and extensions, whose extensions array has one object per item in order.", "quantifier": "every file name (NUL-free), every list of items from table entries or the unknown fallback", "why_tests_cant": "All names, all byte samples, all list lengths.", "anchors": ["fileid/common.hpp: Output", "fileid/common.hpp: ExtensionInfo::ToJson", "fileid/unknown.hpp: ToJson"]}
{"id": "C26", "title": "XML output is one well-formed XML document", "statement": "For every file name and every list of generic or unknown items the XML output is a single element file containing name and extensions elements, with one item element per reported item in order.", "quantifier": "every file name, every list of items from table entries or the unknown fallback", "why_tests_cant": "All names, all byte samples, all list lengths.", "anchors": ["fileid/common.hpp: Output", "fileid/common.hpp: ExtensionInfo::ToXml", "fileid/unknown.hpp: ToXml"]}
{"id": "C27", "title": "Text and CSV output are line-structured", "statement": "Text output is the file name line followed by one tab-indented line per item; CSV output is one line per item; splitting an item line at the separator gives back its five fields.", "quantifier": "every file name and every list of items", "why_tests_cant": "All lists of items and field contents.", "anchors": ["fileid/common.hpp: Output", "fileid/common.hpp: ExtensionInfo::ToText", "fileid/common.hpp: ExtensionInfo::ToCsv"]}
{"id": "C28", "title": "Executable kind decision", "statement": "For a DOS/PE file the reported extension is dll, sys or exe according to the COFF characteristics bits (system file wins over DLL), and exe when the file ends before or with the COFF header.", "quantifier": "every file content with a complete DOS header", "why_tests_cant": "All header contents and all header positions.", "anchors": ["fileid/exe/Exec.hpp: Detailer"]}
{"id": "C29", "title": "Executable inspection never leaves the file", "statement": "Inspecting a file that starts with MZ reads no byte outside the bytes obtained from the file.", "quantifier": "every file starting with the two bytes MZ, of any length", "why_tests_cant": "Every length and every 32-bit header offset.", "anchors": ["fileid/exe/Exec.hpp: Detailer"]}
{"id": "C30", "title": "Mach-O description", "statement": "For every Mach-O header the reported cpu type name is determined by the cputype field alone and the magic number is rendered losslessly; inspection stays inside the file.", "quantifier": "every file content starting with a Mach-O magic", "why_tests_cant": "All header contents and lengths.", "anchors": ["fileid/exe/macho.hpp: Detailer, cpuType2String"]}
{"id": "C31", "title": "RIFF kind decision", "statement": "A RIFF file is reported as cda, wav, avi, qcp or rmi exactly when the corresponding eight-byte tag (form type plus first chunk id) stands at offset 8, as riff otherwise (in particular when fewer than 16 bytes are available); no out-of-bounds read.", "quantifier": "every buffer", "why_tests_cant": "All contents and lengths.", "anchors": ["fileid/media/riff/riff.hpp: RIFFHelper"]}
{"id": "C32", "title": "MP4 inspection is total", "statement": "Inspecting a file that carries ftyp at offset 4 yields a description whose brand is the four bytes after ftyp; it does not fail on short files.", "quantifier": "every buffer with ftyp at offset 4", "why_tests_cant": "Short-file lengths 8..15 are each a different failure.", "anchors": ["fileid/media/mp4/mp4.hpp: Detailer"]}
{"id": "C33", "title": "DWG version decision", "statement": "The AutoCAD release reported is determined by the six-byte version tag; unknown tags give the generic answer.", "quantifier": "every buffer", "why_tests_cant": "All six-byte tags.", "anchors": ["fileid/document/dwg/autocad.hpp: DwgHelper"]}
{"id": "C34", "title": "Windows Installer kind decision", "statement": "The OLE stream listing decides between msm, msi and msp: merge module marker first, then installer marker, then patch marker, otherwise unchanged.", "quantifier": "every stream content", "why_tests_cant": "All byte strings.", "anchors": ["fileid/document/msi/msi.hpp: Detailer"]}
{"id": "C35", "title": "Content-type scan finds every declared type", "statement": "Scanning [Content_Types].xml yields, in order, the value of every ContentType attribute.", "quantifier": "every document text", "why_tests_cant": "All texts, including empty values and missing quotes.", "anchors": ["fileid/zip/ziphelper.hpp: Detailer"]}
{"id": "C36", "title": "No extension is reported twice for one archive", "statement": "In the result for one archive no two items share an extension.", "quantifier": "every sequence of marker entries and content types", "why_tests_cant": "All orders and repetitions.", "anchors": ["fileid/zip/ziphelper.hpp: addExtension, extMap"]}
{"id": "C37", "title": "Archive inspection does not depend on earlier archives", "statement": "The items reported for an archive do not depend on archives inspected earlier in the process.", "quantifier": "every history of inspected archives", "why_tests_cant": "Hidden global map; needs arbitrary histories.", "anchors": ["fileid/zip/ziphelper.hpp: extMap, addExtension"]}
{"id": "C38", "title": "OLE header round trip", "statement": "Saving a compound-file header and loading the saved bytes gives back every field, and validity is preserved.", "quantifier": "every header whose fields fit the widths they are stored with (two of them 16 bits, the others 32) and 109 table slots", "why_tests_cant": "All field values.", "anchors": ["fileid/oless/pole.h: Header::load, Header::save, Header::valid"]}
{"id": "C39", "title": "Sector chains are followed faithfully", "statement": "Following an acyclic sector chain returns exactly the sectors of the chain from the start sector up to the end mark, each once, all inside the table.", "quantifier": "every allocation table and every start sector whose chain is acyclic", "why_tests_cant": "All tables.", "anchors": ["fileid/oless/pole.h: AllocTable::follow"]}
{"id": "C40", "title": "Following a sector chain terminates", "statement": "Following a chain terminates for every allocation table, including damaged or malicious ones.", "quantifier": "every allocation table and start sector", "why_tests_cant": "Non-termination needs a cyclic table; no finite test bounds the loop.", "anchors": ["fileid/oless/pole.h: AllocTable::follow"]}
{"id": "C41", "title": "Allocation table round trip", "statement": "Saving an allocation table and loading it back restores every slot.", "quantifier": "every table", "why_tests_cant": "All tables.", "anchors": ["fileid/oless/pole.h: AllocTable::load, AllocTable::save"]}
{"id": "C42", "title": "Directory listing visits the sibling tree in order", "statement": "Listing the children of a storage returns, for every well-formed (acyclic) sibling tree, each sibling exactly once and in in-order sequence.", "quantifier": "every finite sibling tree", "why_tests_cant": "All tree shapes.", "anchors": ["fileid/oless/pole.h: dirtree_find_siblings, DirTree::children"]}
{"id": "C43", "title": "Directory lookup finds a name exactly when it exists", "statement": "For a sibling tree ordered by the comparison the library uses, looking up a name returns the entry with that name if there is one among the siblings and reports absence otherwise.", "quantifier": "every ordered sibling tree and every name", "why_tests_cant": "All trees and names.", "anchors": ["fileid/oless/pole.h: dirtree_find_sibling, DirEntry::compare"]}
{"id": "C44", "title": "Stream read returns the stream content", "statement": "Reading a large stream from position pos returns the bytes pos.. of the concatenation of its sectors, limited by the stream size and the request.", "quantifier": "every container image, chain, position and length", "why_tests_cant": "All images and chains.", "anchors": ["fileid/oless/pole.h: StreamIO::read, StorageIO::loadBigBlock(s)"]}
{"id": "C45", "title": "Directory entry names", "statement": "The name of a directory entry is the UTF-16 text stored in the entry.", "quantifier": "every directory entry, for both widths of wchar_t", "why_tests_cant": "All names; the failure depends on the platform's wchar_t.", "anchors": ["fileid/oless/pole.h: DirTree::load"]}
{"id": "C46", "title": "Document kind of a compound file", "statement": "The results reported for a compound file name, in the order of a walk through its storages, the kind told by every storage or stream that tells one (a storage of a VBA project, or a stream with one of 26 documented paths, some regardless of case); when none does, the generic compound-file answer is the only result.", "quantifier": "every compound file, every tree of storages and streams, every history of the process", "why_tests_cant": "All trees of storages; nesting, order and names are unbounded.", "anchors": ["fileid/oless/oless.hpp: guessStreamInfo, Guess", "fileid/oless/olessmagic.h"]}
{"id": "C47", "title": "VBA decompression inverts the MS-OVBA compression", "statement": "For every well-formed compressed container the decompressor produces exactly the text its tokens denote.", "quantifier": "every well-formed sequence of chunks and tokens", "why_tests_cant": "All token sequences, copy-token bit splits and chunk boundaries.", "anchors": ["fileid/oless/vbahelper.hpp: Decompress"]}
{"id": "C48", "title": "VBA decompression never leaves its buffers", "statement": "Decompression of arbitrary bytes neither reads outside the input nor writes outside the output.", "quantifier": "every byte string", "why_tests_cant": "Crafted copy tokens and lengths.", "anchors": ["fileid/oless/vbahelper.hpp: Decompress"]}
{"id": "C49", "title": "Workbook record walk accounts for every record", "statement": "Walking a well-formed record stream yields every record in order with its type and complete data.", "quantifier": "every sequence of records", "why_tests_cant": "All record sequences, in particular the position of the last one.", "anchors": ["fileid/document/excel/ParseEngine.hpp: ParseStream"]}
{"id": "C50", "title": "Column names are unique and standard", "statement": "The name of 1-based column n is its bijective base-26 numeral: different columns have different names, names read back as the number, and there is no name for 0.", "quantifier": "every column number 1..65535", "why_tests_cant": "All numbers and the induction over digits.", "anchors": ["fileid/document/excel/MSExcel.common.hpp: ColNumToName"]}
{"id": "C51", "title": "Cell references name the right cell", "statement": "Every record that names a cell prints the column letters of its zero-based column followed by the one-based row number.", "quantifier": "every row and column", "why_tests_cant": "All cells; 2^32 combinations and several record kinds.", "anchors": ["fileid/document/excel/structures/Cell.hpp: to_string", "fileid/document/excel/records/RKRecord.hpp", "fileid/document/excel/records/MulBlankRecord.hpp"]}
{"id": "C52", "title": "Formula parsing terminates", "statement": "Parsing the token stream of a formula terminates for every byte string.", "quantifier": "every byte string", "why_tests_cant": "The loop relies on every token consuming at least one byte; needs all token kinds and operands.", "anchors": ["fileid/document/excel/structures/formulas/Rgce.hpp: Parse"]}
{"id": "C53", "title": "RK numbers", "statement": "The number shown for an RK cell is the number its encoding denotes.", "quantifier": "every 32-bit RK value", "why_tests_cant": "2^32 encodings.", "anchors": ["fileid/document/excel/records/RKRecord.hpp: RKNumber"]}
{"id": "C54", "title": "ASF object identification", "statement": "Each ASF object identifier maps to one object kind, different identifiers map to different kinds, unknown identifiers map to Unknown.", "quantifier": "every 16-byte identifier", "why_tests_cant": "2^128 identifiers.", "anchors": ["fileid/media/asf/asf.hpp: ASFTypeFromGuid, ASFTypeToString"]}
{"id": "C55", "title": "ASF header walk terminates", "statement": "Walking the objects of an ASF file terminates for every file content.", "quantifier": "every file content", "why_tests_cant": "Nested object sizes are attacker-controlled.", "anchors": ["fileid/media/asf/asf.hpp: Parse, header_extension_object, Detailer"]}
{"id": "C56", "title": "Word file version", "statement": "The version number reported for a Word document is the nFib of its FIB, taken from the extended block when the FIB declares one, and a fixed sentinel when the stream is too short; no out-of-bounds read.", "quantifier": "every WordDocument stream", "why_tests_cant": "All lengths and counts.", "anchors": ["fileid/document/word/word.hpp: GetnFib"]}
{"id": "C57", "title": "PowerPoint, Publisher and Visio versions", "statement": "The version reported is the documented header field when the stream holds it, with a sentinel when it is too short, without reading outside the stream.", "quantifier": "every stream content", "why_tests_cant": "All lengths and offsets.", "anchors": ["fileid/document/powerpoint/ppt.hpp", "fileid/document/pubisher/pub.hpp", "fileid/document/visio/vsd.hpp"]}
{"id": "C58", "title": "Property sets", "statement": "Each property of a property-set stream is decoded from the value located by its offset, with the type-specific encoding.", "quantifier": "every property-set stream", "why_tests_cant": "All streams, offsets and types.", "anchors": ["fileid/oless/propset/Property.hpp: ReadProperty", "fileid/oless/propset/FormatId.hpp: FormatIdFromGuid", "fileid/oless/propset/DocumentSummary.hpp"]}
{"id": "C59", "title": "PE characteristics listing", "statement": "For an executable with a complete COFF header, the characteristics listed are exactly the names of the set bits of its characteristics field, each once, lowest bit first.", "quantifier": "every executable file and every 16-bit characteristics value", "why_tests_cant": "65536 values times every header position.", "anchors": ["fileid/exe/Exec.hpp: Detailer, BuildVectorFromMap, coffCharacteristics"]}
{"id": "C60", "title": "PE machine and subsystem names", "statement": "The machine and subsystem names reported for an executable are those the PE format gives the values of its machine and subsystem fields; values outside the format's lists have no name.", "quantifier": "every executable file and every field value", "why_tests_cant": "All 16-bit values at every header position.", "anchors": ["fileid/exe/Exec.hpp: GetMachineTypeString, GetSubsystemString, Detailer"]}
{"id": "C61", "title": "PE version fields", "statement": "Linker, operating system, image and subsystem versions reported for an executable are the numbers in the corresponding fields of its optional header, whenever the file contains that header.", "quantifier": "every executable file with a complete optional header", "why_tests_cant": "All field values and header positions.", "anchors": ["fileid/exe/Exec.hpp: Detailer, OPTIONAL_HEADER, BuildVersionString"]}
{"id": "C62", "title": "Plain DOS programs are exe", "statement": "A file with a DOS header but without a PE signature where the header points is reported as exe.", "quantifier": "every file with a DOS header", "why_tests_cant": "All contents at the place of the missing header.", "anchors": ["fileid/exe/Exec.hpp: Detailer"]}
{"id": "C63", "title": "PowerPoint build naming", "statement": "The release name for a PowerPoint build number is that of the release with that build number.", "quantifier": "every build number", "why_tests_cant": "Tolerance ranges overlap; needs every number against every release.", "anchors": ["fileid/document/powerpoint/ppt.hpp: GetVersion_Powerpoint, withinCheck"]}
{"id": "C64", "title": "Archive report", "statement": "Inspecting an archive reports, in order, one item per marker entry present, then of each extension told by a declared content type or the MIME type the first; an archive that tells nothing is reported as plain zip listing every entry.", "quantifier": "every archive", "why_tests_cant": "All combinations of entries and all content-type lists.", "anchors": ["fileid/zip/ziphelper.hpp: Detailer, CheckEntry, CheckContentType, CheckMimeType, GetVBA, getZipDetails"]}
{"id": "C65", "title": "Package types map to the standard extensions", "statement": "Each Office content type and each OpenDocument MIME type is given the extension its standard assigns; other types are given none.", "quantifier": "every content type and MIME type text", "why_tests_cant": "All texts.", "anchors": ["fileid/zip/ziphelper.hpp: CheckContentType, CheckMimeType"]}
{"id": "C66", "title": "Documents for plain archives", "statement": "The JSON and XML documents for a plain archive are well formed and list every entry with its name, sizes, method, comment and checksum.", "quantifier": "every archive", "why_tests_cant": "Entry names and comments are arbitrary texts.", "anchors": ["fileid/zip/ziphelper.hpp: ZipExtensionInfo::ToJson, ZipExtensionInfo::ToXml"]}
{"id": "C67", "title": "Small streams are read from the mini stream", "statement": "Reading a stream below the size threshold from position pos returns the bytes pos.. of the concatenation of its mini sectors, limited by the stream size and the request.", "quantifier": "every container image whose mini sectors lie inside the mini stream, every chain, position up to the size, and length", "why_tests_cant": "All images, chains and positions.", "anchors": ["fileid/oless/pole.h: StreamIO::read, StorageIO::loadSmallBlocks"]}
{"id": "C68", "title": "Opening a container reads its tables and directory", "statement": "Opening a well-formed compound file of any size (also with a DIFAT chain) yields the allocation table, the mini allocation table, the mini stream chain and every directory entry exactly as stored.", "quantifier": "every well-formed image, for both widths of wchar_t", "why_tests_cant": "All images, sector sizes and table sizes.", "anchors": ["fileid/oless/pole.h: StorageIO::load, getbbatBlocks, DirTree::load, AllocTable::load"]}
{"id": "C69", "title": "Opening a damaged container is refused safely", "statement": "For every file that is not a well-formed compound file opening reports failure without using memory it did not fill.", "quantifier": "every file content", "why_tests_cant": "All damaged files.", "anchors": ["fileid/oless/pole.h: StorageIO::load"]}
{"id": "C70", "title": "Directory walks terminate", "statement": "Listing the children of a storage and looking up a name terminate for every directory content.", "quantifier": "every directory, including damaged or malicious ones", "why_tests_cant": "Non-termination needs cyclic links; no finite test bounds the recursion.", "anchors": ["fileid/oless/pole.h: dirtree_find_siblings, dirtree_find_sibling"]}
{"id": "C71", "title": "Every listed entry can be opened", "statement": "In a directory ordered as MS-CFB prescribes (names compared in upper case) every name the listing returns can be looked up by its path.", "quantifier": "every directory tree ordered by the MS-CFB order", "why_tests_cant": "All trees and names; depends on the interplay of two orders.", "anchors": ["fileid/oless/pole.h: dirtree_find_sibling, DirEntry::compare, Storage::entries, Storage::exists"]}
{"id": "C72", "title": "A formula is shown as its tokens", "statement": "The text shown for a formula is the texts of its tokens, in order, separated by semicolons, each token being read with the length MS-XLS gives it; nothing is left out and nothing is added.", "quantifier": "every sequence of tokens, every content of their fields", "why_tests_cant": "Token sequences are unbounded; one wrong length shifts everything behind it.", "anchors": ["fileid/document/excel/structures/formulas/Rgce.hpp: Parse, ToTextString", "fileid/document/excel/structures/formulas/Ptg.hpp: Parse, to_string", "fileid/document/excel/records/FormulaRecord.hpp"]}
{"id": "C73", "title": "A formula's stored value is shown", "statement": "For every accepted formula record the output shows the stored result: the number, the truth value, the error's name, or nothing when the result is a string or blank.", "quantifier": "every accepted formula record", "why_tests_cant": "All 2^64 values of the field, in five encodings.", "anchors": ["fileid/document/excel/structures/FormulaValue.hpp", "fileid/document/excel/records/FormulaRecord.hpp"]}
{"id": "C74", "title": "The walk through a compound file ends", "statement": "Identification and listing of every compound file terminate.", "quantifier": "every file", "why_tests_cant": "Whether it ends depends on cycles among links in the directory, in files of any size.", "anchors": ["fileid/oless/oless.hpp: recurse, Guess, List"]}
{"id": "C75", "title": "Every path is reported", "statement": "The report for a compound file gives the path of every storage (with a final slash) and every stream, once each, in the order of the walk.", "quantifier": "every compound file", "why_tests_cant": "All trees of storages.", "anchors": ["fileid/oless/oless.hpp: recurse, Guess"]}
{"id": "C76", "title": "The content of a stream is found by its path", "statement": "Reading a stream by its path gives exactly the bytes its sectors (or mini sectors) hold, as many as its size says; a path of a storage, or of nothing, gives none.", "quantifier": "every compound file and every path in it", "why_tests_cant": "All layouts of sectors, both kinds of streams and every depth of nesting.", "anchors": ["fileid/oless/OleCommon.hpp: ReadStream", "fileid/oless/pole.h: StreamImpl::read"]}
{"id": "C77", "title": "Every compound file can be reported in every format", "statement": "For every compound file that was identified the text, CSV, JSON and XML reports are made; JSON shows every path.", "quantifier": "every compound file, every format, both platforms", "why_tests_cant": "All names; failures depend on single units of names.", "anchors": ["fileid/oless/OleCommon.hpp: OLESSExtensionInfo::buildBaseJson, buildBaseXml", "fileid/document/wp/wordperfect.hpp", "fileid/fileid.cpp"]}
{"id": "C78", "title": "Extraction writes exactly the stream", "statement": "Extracting a stream of a compound file by its path writes exactly its content to the output file.", "quantifier": "every compound file and every stream in it", "why_tests_cant": "All sizes relative to the 16-byte pieces that are copied, and all layouts.", "anchors": ["fileid/oless/oless.hpp: Dump"]}
{"id": "C79", "title": "Listing shows every stream and its size", "statement": "A listing of a compound file that is made gives every stream once, in the order of the walk, with its path and stored size, and no storages.", "quantifier": "every compound file", "why_tests_cant": "All trees of storages.", "anchors": ["fileid/oless/oless.hpp: List, printStreamInfo"]}
{"id": "C80", "title": "VBA project name", "statement": "The project name reported for a VBA project is the one its directory stores.", "quantifier": "every project directory", "why_tests_cant": "All names, and all other records in front of the name.", "anchors": ["fileid/oless/vbahelper.hpp: Analyze"]}
{"id": "C81", "title": "VBA project version", "statement": "The version numbers reported for a VBA project are the ones its directory stores.", "quantifier": "every project directory", "why_tests_cant": "All 2^48 pairs of numbers, behind strings of every length.", "anchors": ["fileid/oless/vbahelper.hpp: Analyze, ProjectVersion"]}
{"id": "C82", "title": "VBA references", "statement": "The references reported for a VBA project are the names of all references its directory stores, in order.", "quantifier": "every project directory", "why_tests_cant": "Sequences of references are unbounded.", "anchors": ["fileid/oless/vbahelper.hpp: Analyze"]}
{"id": "C83", "title": "VBA modules", "statement": "Every module of a VBA project is reported once, in order, with its name, stream, offset, flags and decompressed source text.", "quantifier": "every project and every source text", "why_tests_cant": "Sequences of modules and texts are unbounded; both are compressed and behind strings of every length.", "anchors": ["fileid/oless/vbahelper.hpp: Analyze, GetCode, FetchStream, FetchAndDecompress"]}
{"id": "C84", "title": "Reading a VBA directory ends", "statement": "Reading the directory of a VBA project terminates whatever bytes it consists of.", "quantifier": "every byte sequence", "why_tests_cant": "The loops are driven by attacker-controlled lengths with 32-bit arithmetic.", "anchors": ["fileid/oless/vbahelper.hpp: Analyze, ReadString, ReadStringW"]}
{"id": "C85", "title": "Kind of an ASF file", "statement": "An ASF file is reported as wmv if it lists a Windows Media Video codec, else as wma if it lists a Windows Media Audio codec, else as asf.", "quantifier": "every ASF file", "why_tests_cant": "All sequences of objects and codecs.", "anchors": ["fileid/media/asf/asf.hpp: Detailer, codec_list_object"]}
{"id": "C86", "title": "What is shown of an ASF file", "statement": "The JSON and XML documents for an ASF file are well formed and show every object of the header, in order and nested as stored, with its name and all its fields.", "quantifier": "every ASF file", "why_tests_cant": "All sequences and nestings of objects, all values of their fields.", "anchors": ["fileid/media/asf/asf.hpp: Parse, ASFExtensionInfo, asf_object, file_properties, stream_properties_object, header_extension_object, content_description_object, extended_content_description_object, codec_list_object"]}
{"id": "C87", "title": "ASF files are reported on every platform", "statement": "A valid ASF file is reported alike on Windows and on Linux.", "quantifier": "every ASF file, both platforms", "why_tests_cant": "Depends on the width of unsigned long; all files.", "anchors": ["fileid/media/asf/asf.hpp: file_properties, asf_header, Detailer", "fileid/common.hpp: ReadULong"]}
{"id": "C88", "title": "Sheets of a workbook", "statement": "The sheets reported for a BIFF8 workbook are exactly those it declares, in order, with name, kind, visibility and offset as declared; the records describing the workbook are listed under it and the records of each substream under the sheet declared at its offset.", "quantifier": "every workbook, every sequence of records and sheets", "why_tests_cant": "All orders of declarations and substreams, all contents and offsets.", "anchors": ["fileid/document/excel/ParseEngine.hpp: ParseStream", "fileid/document/excel/Sheet.hpp", "fileid/document/excel/records/BoundSheet8Record.hpp"]}
{"id": "C90", "title": "Encrypted workbooks", "statement": "Of an encrypted workbook everything up to and including the record describing the encryption is listed, that record shows the method and its values, and the encrypted bytes behind it have no influence on the report.", "quantifier": "every workbook, every method and every encrypted rest", "why_tests_cant": "The rest is arbitrary bytes that look like records.", "anchors": ["fileid/document/excel/ParseEngine.hpp: ParseStream", "fileid/document/excel/records/FilePassRecord.hpp"]}
{"id": "C89", "title": "Reports about compound files are documents", "statement": "The JSON and XML reports about a compound file are well-formed documents that show, for each result, what was found, every path and every property with its name, type and value.", "quantifier": "every compound file, every name and every property in it", "why_tests_cant": "Names, texts and numbers are arbitrary; one character can break the document.", "anchors": ["fileid/oless/OleCommon.hpp: OLESSExtensionInfo::buildBaseJson, buildBaseXml, ToJson, ToXml", "fileid/oless/propset/Property.hpp: ToJson, ToXML", "fileid/fileid.cpp"]}
{"id": "C91", "title": "Reports about workbooks are documents", "statement": "The JSON and XML reports about a workbook are well-formed documents that show every record of the workbook globals and of every sheet, in order, with its type, length and the names, texts and numbers decoded from it.", "quantifier": "every workbook stream that is read, and every name and number in it", "why_tests_cant": "Sheet names, user names, link paths and formulas are arbitrary; one character can break the document.", "anchors": ["fileid/document/excel/ParseEngine.hpp", "fileid/document/excel/records/*.hpp: ToJson, ToXml", "fileid/document/excel/ExcelExtensionInfo.hpp: ToJson, ToXml"]}
{"id": "C92", "title": "Reports about VBA projects are documents", "statement": "The JSON and XML reports about a VBA project are well-formed documents that show its name, version, references and modules, with each module's source text exactly as stored; nothing in the file can add elements to the report.", "quantifier": "every project that is read, whatever its names and source texts contain", "why_tests_cant": "The source text is written by the author of the macro, who may be hostile.", "anchors": ["fileid/oless/vbahelper.hpp: ToJson, ToXml, Analyze"]}
{"id": "C93", "title": "The program as a whole", "statement": "Run on a file, the program finds exactly what the signatures standing in the file at their offsets and their extractors tell, in table order, and prints in the format asked for; JSON and XML output is one well-formed document with the name of the file and one object for each result showing what was found.", "quantifier": "every file, every path, every format, every platform", "why_tests_cant": "Composition of all extractors with the printing; any byte of any file can break the document.", "anchors": ["fileid/fileid.cpp: main, guessExtension, UnknownExtension", "fileid/common.hpp: Output, ExtensionInfo", "fileid/magic.h"]}
{"id": "C94", "title": "WordPerfect files are reported", "statement": "A file with a WordPerfect signature is reported in every format, with the information of its header in JSON and XML.", "quantifier": "every file with the signature", "why_tests_cant": "Whether memory is still valid when it is printed is not visible in a passing test.", "anchors": ["fileid/document/wp/wordperfect.hpp: Detailer, StreamDetailer, ToJson, ToXml", "fileid/magic.h"]}
{"id": "C95", "title": "Macros in Office Open XML packages are reported", "statement": "For a package that declares a VBA project the program reports the project, with name, references and modules of the binary part that stores it.", "quantifier": "every package", "why_tests_cant": "All packages; the result depends on memory that may never have been written.", "anchors": ["fileid/zip/ziphelper.hpp: GetVBA, Detailer", "fileid/oless/vbahelper.hpp: Analyze", "fileid/oless/pole.h: Storage, StorageIO"]}
{"id": "C96", "title": "What is shown of the records of a workbook", "statement": "The entry of a record of a workbook, in the JSON and in the XML report, is a document that says exactly what the record says: the kind and versions of a part of the workbook, the code page, the countries, the name of the user, code names, texts, function groups, sheets, shared strings, defined names with their flags.", "quantifier": "every BIFF8 workbook stream and every record of these kinds in it, every platform", "why_tests_cant": "All workbooks, all values of all fields of a record, in any position.", "anchors": ["fileid/document/excel/records/BOFRecord.hpp", "fileid/document/excel/records/CodePageRecord.hpp", "fileid/document/excel/records/CountryRecord.hpp", "fileid/document/excel/records/WriteAccessRecord.hpp", "fileid/document/excel/records/CodeNameRecord.hpp", "fileid/document/excel/records/StringRecord.hpp", "fileid/document/excel/records/BoundSheet8Record.hpp", "fileid/document/excel/records/SSTRecord.hpp", "fileid/document/excel/records/LblRecord.hpp", "fileid/document/excel/records/RowRecord.hpp", "fileid/document/excel/records/WinProtectRecord.hpp", "fileid/document/excel/records/ExternNameRecord.hpp"]}
{"id": "C97", "title": "A name in a report stands for one number", "statement": "Where a report shows a name in place of a number of the file (kind of a record, function or command of a formula, code page, country, type or identifier of a property, machine, subsystem, processor, kind of ASF object, brand, characteristics), different numbers have different names, and the text shown for numbers without a name is the name of none; two records shown by the same text are of the same kind.", "quantifier": "every value of each of these fields", "why_tests_cant": "Pairs of values of 16- and 32-bit fields.", "anchors": ["fileid/document/excel/records/Record.hpp: GetRecordTypeStr", "fileid/document/excel/structures/formulas/helper.hpp: GetFunctionName_FTab, GetFunctionName_CeTab", "fileid/document/excel/records/CodePageRecord.hpp: CPToString", "fileid/document/excel/records/CountryRecord.hpp: GetCountryName", "fileid/oless/propset/PropertyType.hpp", "fileid/oless/propset/PropertyIdentifier.hpp", "fileid/exe/Exec.hpp: GetMachineTypeString, coffCharacteristics", "fileid/exe/macho.hpp: cpuType2String", "fileid/media/asf/asf.hpp: ASFTypeToString", "fileid/media/mp4/mp4.hpp: GetBrandName"]}
{"id": "C98", "title": "Files are identified as the list of file types says", "statement": "The project keeps its file types in data.xml: extension, name, version, offset and bytes of each, and for some an extractor. The first identification of a file reports the contributions of exactly those types whose bytes stand in the file at their offset, in the order of that list: the extension, name and version given there, or what the extractor given there finds. Every type of the list has a signature and an extractor that exists, if any.", "quantifier": "every readable file below 4 GiB, every file type of the list", "why_tests_cant": "All contents of a file; the table that is compiled in is a generated copy of the list.", "anchors": ["fileid/data.xml", "fileid/magic.h::initList", "fileid/fileid.cpp::guessExtension"]}
{"id": "C99", "title": "Names of record kinds, functions and commands", "statement": "In the report of a workbook every kind of record, every function and every command of a formula is shown by its own name in the tables of the format, and every number that is not in them as unknown.", "quantifier": "every number", "why_tests_cant": "Hundreds of rows in each table and all other numbers; one wrong row misleads a user about what a formula or a record does.", "anchors": ["fileid/document/excel/records/Record.hpp::GetRecordTypeStr", "fileid/document/excel/structures/formulas/helper.hpp::GetFunctionName_FTab", "fileid/document/excel/structures/formulas/helper.hpp::GetFunctionName_CeTab"]}
{"id": "C100", "title": "Documents in compound files are told as they are", "statement": "For a compound file without macros and workbooks whose streams hold what they need, results are made and can be reported in every format: one for every stream that shows a document type in data.xml, in the order of the directory, with the extension and the name given there and the version written in the stream (Word, PowerPoint, Publisher, Visio) and its published name; the first result lists the paths of all objects and, for each summary stream, every property with its name and value. When no stream shows a type there is one result that says it is a compound file.", "quantifier": "every compound file, every directory tree, every content of the streams", "why_tests_cant": "Any tree of storages and streams with any content; each of five detailers has its own boundaries.", "anchors": ["fileid/data.xml", "fileid/oless/oless.hpp: guessStreamInfo, Guess", "fileid/oless/olessmagic.h", "fileid/document/word/word.hpp: GetnFib", "fileid/document/powerpoint/", "fileid/document/visio/", "fileid/document/pubisher/", "fileid/oless/propset/Property.hpp: ReadProperty"]}
{"id": "C101", "title": "The report about a workbook is the workbook", "statement": "The report about a BIFF8 workbook says that it is one and lists the records that describe it, then the declared sheets in the order of their declarations, each with its name, what kind of sheet it is, whether it is hidden and where it begins, and under each sheet the records of its substream; every record appears once, in its order, with its kind, its length and what it says. The report is a well-formed JSON or XML document from which all this can be read back.", "quantifier": "every workbook (any records, any number of sheets in any order, any contents), JSON and XML, Linux and Windows", "why_tests_cant": "The number, kinds, order and contents of records and sheets are unbounded, and a record that is listed at the wrong place or under the wrong sheet still gives a plausible report.", "anchors": ["fileid/document/excel/ParseEngine.hpp: ParseStream", "fileid/document/excel/ExcelExtensionInfo.hpp: Detailer, ExcelExtensionInfo", "fileid/document/excel/Sheet.hpp", "fileid/document/excel/SubStream.hpp", "fileid/document/excel/MSExcel.common.hpp: GetSheetTypeStr, GetVisibilityStr", "fileid/document/excel/records"]}
{"id": "C102", "title": "The report about a compound file shows every object that counts", "statement": "The report about a compound file has one item for every storage with macros and every stream that shows a document type, in the order of the directory: of macros the project, its references and modules with their code, or that they could not be read; of documents type and version; of workbooks every sheet and record. The paths of all objects and the properties of all summary streams are told once, with the first item. If no object counts there is one item that says it is a compound file, with paths and properties. The report is a well-formed document from which all this can be read back.", "quantifier": "every compound file: every directory tree, every content of its streams, workbooks with any records and any number of sheets", "why_tests_cant": "Trees, streams, records and modules are unbounded, and what is found in one object is printed by code that is far from the walk that found it.", "anchors": ["fileid/oless/oless.hpp: guessStreamInfo, Guess, Detailer", "fileid/oless/olessdetails.hpp", "fileid/oless/vbahelper.hpp: Analyze, ToJson", "fileid/document/excel/ExcelExtensionInfo.hpp", "fileid/fileid.cpp"]}
{"id": "C103", "title": "Streams that are written keep their bytes", "statement": "Whatever history of seeking, writing, reading and changing sizes the open streams of a compound file go through, every write stores all its bytes, every read of bytes that were written to that stream returns what was written last, up to the end of the stream, and no stream changes another.", "quantifier": "every compound file being written, every history of calls on any number of open streams", "why_tests_cant": "Histories are unbounded; sectors of two kinds are handed out, freed and linked in tables that grow into the same file.", "anchors": ["fileid/oless/pole.h: StreamIO::write, StreamIO::read, StreamIO::setSize, StorageIO::extendFile, StorageIO::saveBlock, AllocTable::unused, AllocTable::setChain"]}
{"id": "C104", "title": "A stream of any size can be written", "statement": "Writing bytes to a stream, or changing its size, is defined and succeeds whatever size the stream has and gets.", "quantifier": "every stream, every position, every data", "why_tests_cant": "Depends on the size before and after relative to the threshold of 4096 bytes.", "anchors": ["fileid/oless/pole.h: StreamIO::setSize, StreamIO::write"]}
{"id": "C105", "title": "A stream that is opened shows what was written", "statement": "A stream of a compound file that is opened shows what was written through any object for the same stream.", "quantifier": "every compound file being written, every stream, every number of objects", "why_tests_cant": "All histories of calls on several objects.", "anchors": ["fileid/oless/pole.h: Stream::Stream, StreamIO::StreamIO, StorageIO::streamIO"]}
{"id": "C106", "title": "A storage is a map from paths to streams", "statement": "Whatever history of opening and creating streams by path, listing storages, asking what exists, seeking, writing, reading and changing sizes a new compound file goes through, every answer is that of a map from paths to streams: a stream opens exactly when it is there or is to be created, what is created is found at its path with the storages on the way and changes nothing that was there, storages list what they hold once and in order, and bytes are read as they were written.", "quantifier": "every history of requests, every path, every data, Linux and Windows", "why_tests_cant": "Histories, depths and names are unbounded; the directory is a search tree of siblings for each storage, kept in a table that grows into the file.", "anchors": ["fileid/oless/pole.h: DirTree::entry, DirTree::findClosest, DirTree::unused, Storage::entries, Storage::exists, Storage::isDirectory, Stream::Stream"]}
{"id": "C107", "title": "What is created lies in storages that list it", "statement": "Every stream and storage of a compound file lies in a storage that lists it.", "quantifier": "every history of requests on a new compound file", "why_tests_cant": "All paths relative to all that exists.", "anchors": ["fileid/oless/pole.h: DirTree::entry, Storage::entries"]}
{"id": "C108", "title": "Workbooks of older versions of Excel", "statement": "Workbooks of Excel 2 to 95 (BIFF2 to BIFF5) are shown as they are: every record is listed once, in order, with type, length and data; the sheets a BIFF5 workbook declares are listed in their order with name, kind, visibility and place, each with the records of its own substream, and the report can be printed.", "quantifier": "every workbook stream of the versions before BIFF8, every number, order and length of records and sheets, embedded charts included", "why_tests_cant": "Streams are unbounded, and sheets are found by counting substreams, which depends on all that came before.", "anchors": ["fileid/document/excel/ParseEngine.hpp: ParseEngine::ParseStream", "fileid/document/excel/records/BoundSheet5Record.hpp: BoundSheet5Record", "fileid/document/excel/records/BOFRecord.hpp: BOFRecord"]}
{"id": "C109", "title": "Deleting in a compound file", "statement": "Deleting a path of a compound file that is being written removes what is at the path, with all that is in it if it is a storage, and nothing else: every other stream and storage is found, listed and read as before, also through stream objects that are open, the space of what was deleted is free, and deleting a path with nothing at it changes nothing.", "quantifier": "every compound file being written, every directory tree, every path, Linux and Windows", "why_tests_cant": "Storages nest without bound; deleting takes an entry out of a search tree of siblings that may have any shape.", "anchors": ["fileid/oless/pole.h: StorageIO::deleteByName, deleteNode, deleteLeaf, DirTree::deleteEntry, findParentAndSib, findSib"]}
{"id": "C110", "title": "What was written to a compound file is in it when it is opened again", "statement": "After a new compound file has gone through any history of creating, writing, resizing and reading streams and is flushed, opening the file shows the same storages and streams at the same paths, of the same sizes and with every byte that was written, and everything asked of it afterwards is answered as if the file had not been closed.", "quantifier": "every history of requests, all names and data, all contents of the uninitialised memory that is written, Linux and Windows", "why_tests_cant": "Histories are unbounded, and what opening reads depends on where every sector of tables, directory and data came to lie in the file.", "anchors": ["fileid/oless/pole.h: StorageIO::flush, StorageIO::open, StorageIO::load, Header::save, AllocTable::save, DirTree::save"]}
{"id": "C111", "title": "Reading a stream of a compound file byte by byte", "statement": "A stream object returns, whatever sequence of seeking, reading single bytes and reading blocks it is given, the bytes of the stream at its position: single bytes come from a cache of 4096 bytes that is always filled with the bytes around the position, and -1 is returned at the end and nowhere else.", "quantifier": "every stream of every compound file, every sequence of seeks and reads", "why_tests_cant": "The cache is filled, left and filled again depending on positions; sequences and sizes are unbounded.", "anchors": ["fileid/oless/pole.h: StreamIO::getch, StreamIO::updateCache, StreamIO::read, StreamIO::seek"]}
{"id": "C112", "title": "A storage in use: whatever is written, deleted, flushed and closed, in whatever order, all answers are right and the file shows it", "statement": "A program that uses a new storage may create and open streams, write, read and resize them, delete streams and storages with all that is in them, flush and close, in any order and any number of times. Everything it is told is right: what is read is what was written last, a flush changes nothing of what is seen, what was deleted is gone and nothing else. Deleting and flushing come to an end without undefined behaviour. When the file is opened again after the last flush it shows exactly what the program knows: what was written before and after earlier flushes and deletes, and nothing of what was deleted.", "quantifier": "every finite history of requests, deletes, flushes and closes on a new storage; every content of the uninitialised memory that flushes write; every sequence of requests to the storage that is opened on the file", "why_tests_cant": "Space is freed by deletes, handed out again by writes, and only what is marked as changed is written by a flush; whether a block is marked depends on all that happened since the last flush, so that a table sector that is missed shows only in the file and only for certain histories.", "anchors": ["fileid/oless/pole.h: StorageIO::flush, StorageIO::deleteByName, StorageIO::deleteNode, StorageIO::deleteLeaf, StreamIO::write, Storage::deleteByName, StreamImpl::flush"]}
{"id": "C113", "title": "A compound file, whoever wrote it, is the map from paths to streams that it shows", "statement": "A compound file is described by its parts alone: header, allocation tables, directory and which sectors belong to what. Whatever program wrote it, a file whose parts fit together can be opened with the library, and every question is answered as its parts say: what exists at a path and whether it is a storage or a stream, what a storage lists, and what each stream holds, also while streams are written.", "quantifier": "every file that is a compound file with sectors of any size, every assignment of sectors to tables, directory and streams, every tree of entries; every finite history of requests to the storage opened on it", "why_tests_cant": "Files come from other programs, which lay out sectors, tables and directory trees as they like; tests see the files of a few programs.", "anchors": ["fileid/oless/pole.h: StorageIO::load, DirTree::load, AllocTable::load, AllocTable::follow, StorageIO::streamIO, StreamIO::read, DirTree::entry, DirTree::children"]}
{"id": "C114", "title": "Compound files can be opened, changed and flushed again and again, and remain compound files that show the changes", "statement": "A program opens a compound file, changes it in any way (creates, writes, resizes and deletes streams, flushes and closes) and flushes it. All it is told meanwhile is right. The file is then again a compound file by the rules of the format, not just for this library, and shows what it showed before with the changes made and nothing else changed; other programs can open and change it in turn, any number of times. The same holds of files the library made.", "quantifier": "every compound file as the library writes them, every finite history of actions, every content of the uninitialised memory that flushes write, every number of rounds of opening, changing and flushing", "why_tests_cant": "Only what is marked as changed is written; whether the rest of the file fits together with it depends on the file, which another program may have laid out, and on the whole history.", "anchors": ["fileid/oless/pole.h: StorageIO::load, StorageIO::flush, DirTree::save, AllocTable::save, StorageIO::addbbatBlock, StreamIO::write, StorageIO::deleteByName"]}
{"id": "C115", "title": "The list of the FAT's sectors of large compound files survives flushing", "statement": "The header of a compound file names the first 109 sectors of the FAT, the others are named in a chain of further sectors. When the FAT of a storage grows, the library extends this list; after a flush, the chain in the file names exactly the sectors the library keeps the FAT in, for every reader that follows the format and for the library itself. This holds for storages it made, of any size, and for those of other programs.", "quantifier": "every number of FAT sectors a new storage grows by, every state in which the list is as the library makes it, every content of the uninitialised memory that flushes write, every reader that follows the format, every compound file by another program", "why_tests_cant": "Only files of more than 7 MB have such a list, and whether it is right depends on where each of its sectors begins and ends; one size of a file says nothing about the next.", "anchors": ["fileid/oless/pole.h: StorageIO::addbbatBlock, StorageIO::flush, StorageIO::getbbatBlocks"]}
{"id": "C116", "title": "Random strings and the names of temporary files", "statement": "A random string has exactly the length asked for and only characters of the set asked for, each string of them being possible; the name of a temporary file is a name in the directory for temporary files, made of 24 letters and digits, that no file has yet.", "quantifier": "every sequence of random numbers, every set of characters, every length, every directory", "why_tests_cant": "What comes out differs from run to run; a test sees a few of the strings, never the one that leaves the set or names a file that exists.", "anchors": ["fileid/common.hpp: random_string, temp_filename"]}
{"id": "C117", "title": "No request to a storage has undefined behaviour", "statement": "Whatever a program has done with a new compound file through the storage interface, its next request (opening or creating a stream by path, listing, asking what exists, seeking, writing, reading, changing a size) comes to an end with an answer. It never accesses memory it must not, never frees memory wrongly and never ends in an exception.", "quantifier": "all histories of sensible requests to a new storage (paths, data, sizes and positions of any value within their types), all next requests, both platforms; and all states of a storage that show what the user knows", "why_tests_cant": "The state depends on the whole history: chains, directory trees and positions of all streams. Tests visit a few histories, and undefined behaviour need not show in them.", "anchors": ["fileid/pole.h: StreamIO::setSize", "fileid/pole.h: StreamIO::write", "fileid/pole.h: StreamIO::read", "fileid/pole.h: DirTree::entry", "fileid/pole.h: StorageIO::streamIO"]}
{"id": "C118", "title": "Statistics about a compound file", "statement": "The statistics of a storage opened on a compound file are those of the file: the number of slots of the directory and of those without an entry, the number of sectors the FAT has room for and of those it marks as free, and the same of the mini FAT. At no time is more free than there is.", "quantifier": "all compound files (any number of sectors, any contents of tables and directory), both platforms; all states of a storage for the last sentence", "why_tests_cant": "The numbers are counted over tables of any size with any contents; a test compares a few files with known tables.", "anchors": ["fileid/oless/pole.h: Storage::GetStats", "fileid/oless/pole.h: AllocTable::unusedCount", "fileid/oless/pole.h: DirTree::unusedEntryCount"]}
{"id": "C119", "title": "The list of all streams", "statement": "Asked for all streams of a storage by a name that ends with a slash, the library lists the full paths of exactly the streams in that storage and in the storages inside it, at any depth; looking up a listed path gives a stream.", "quantifier": "all directories (any number of entries, any depth of storages, any shape of the trees of siblings), all storages in them, both platforms", "why_tests_cant": "The walk is a queue within a recursion over links from the file; a test covers a few shapes and depths, and a walk that does not end cannot be observed by waiting.", "anchors": ["fileid/oless/pole.h: CollectStreams", "fileid/oless/pole.h: Storage::GetAllStreams"]}
