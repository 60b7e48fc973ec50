# Formal model of DBHeise/fileid in Lean 4

## What is here

* `properties.jsonl` - the semantic properties, in English.
* `lean/Verif/Base.lean` - byte strings, the outcome type, arithmetic helpers.
* `lean/Verif/Model/*.lean` - the model, function by function; every definition cites file and lines of `/repo`.
* `lean/Verif/Spec/*.lean` - small independent specifications (grammars, decoders, calendars) the theorems are stated against.
* `lean/Verif/Lemmas/*.lean` - helper lemmas.
* `lean/Verif/Props/*.lean` - the property theorems, each followed by an `example` showing that its hypotheses can be met.
* `MANIFEST.json` - property -> theorem names and status.
* `seeded/LOG.jsonl` - log of the wrong-program experiments.

## Modelling conventions

* A byte string, `std::string` or `std::vector<unsigned char>` is `List UInt8` (`Bytes`).
* C++ `unsigned int`, `size_t`, ... values are `Nat` (or `UInt8` for single bytes) with an explicit `% 2^32`
  (`u32`), `% 2^64` (`u64`) wherever the code's arithmetic can wrap.
* Functions that can misbehave return `Res α`: `ok a`, `throw e` (a C++ exception, with the exception kind),
  `ub r` (undefined behaviour: out-of-bounds access, null dereference, bad shift, uninitialised read) or
  `fuel` (the step budget of a loop model ran out). Undefined behaviour is never assumed away: every memory access of the model
  goes through a bounds-checked accessor whose failure is `ub`.
* Loops whose termination is not evident take a fuel argument; "does not terminate" is stated as "`fuel`
  for every budget".
* The platform is a parameter where the code depends on it (`Abi`: width of `unsigned long` and `wchar_t`);
  the makefile's platform (Linux LP64: 8 and 4) and Windows (4 and 2) are the two instances. `size_t` is 64-bit,
  integers are little-endian two's complement, the locale is "C".
* The file system is a parameter: a file is absent/unreadable or a byte string.

## What is modelled, and what is not

All paths are below `/repo/fileid`.

| source | model | left out or simplified |
|--------|-------|------------------------|
| `fileid.cpp`, `unknown.hpp`, `magic.h`, `details.hpp` | `Model/FileId`, `Model/Dispatch`, `Model/MagicTable` (generated, all rows), `Model/MagicInfo`; `Model/Program` (`main` with all extractors, C93-C95) | argument parsing apart from the output format; in the theorems before C93 the archive, compound file and ASF extractors enter the dispatcher as arbitrary functions |
| `common.hpp` | `Model/Common` | `random_string`, `temp_filename` (random; the temporary file is modelled by its content); wide to narrow conversion by `codecvt_utf8` on ASCII exactly, otherwise the UTF-8 encoding or `range_error` |
| `exe/Exec.hpp`, `exe/macho.hpp` | `Model/Exec`, `Model/Media` | nothing |
| `media/jpeg.hpp`, `media/riff`, `media/mp4`, `document/dwg`, `document/msi` | `Model/Media`, `Model/OfficeVersions` | nothing |
| `document/word`, `powerpoint`, `pubisher`, `visio` | `Model/OfficeVersions` | nothing |
| `document/wp/wordperfect.hpp` | `Model/Oless` | see the comment there |
| `zip/ziphelper.hpp` | `Model/Zip` | the third-party ZipLib: an archive is its list of entries (name, comment, sizes, content) |
| `oless/pole.h` | `Model/Pole` (reading), `Model/PoleWrite`, `PoleSession`, `PoleStorage` (creating, writing, resizing, deleting), `PoleDelete`, `PoleFlush` (writing tables, header and directory to the file), `PoleGetch` (byte by byte) | the file is a byte string that reads and writes never fail on |
| `oless/oless.hpp`, `olessdetails.hpp`, `olessmagic.h`, `OleCommon.hpp` | `Model/Oless`, `Model/Tables` | console output is the returned text |
| `oless/propset/*` | `Model/Propset` | nothing that is reached |
| `oless/vbahelper.hpp` | `Model/Vba`, `Model/VbaProject` | nothing |
| `document/excel/**` | `Model/Excel`, `ExcelTables` (generated), `ExcelRecords`, `ExcelEngine` | structures that no constructor reaches (revision records, `Ser*`, DConn, whose code is commented out); floating point values are their bit patterns, printed by an uninterpreted function |
| `media/asf/asf.hpp` | `Model/Asf`, `Model/AsfTable` | nothing |
| `container/tar.hpp`, `container/vhdx.hpp`, `misc/javaclass.hpp` | - | no executable code |
| `/repo/ziplib`, `/repo/test`, build scripts | - | third party or tooling |

## Plan per property

| id | property | what is modelled | how it is proved | status |
|----|----------|------------------|------------------|--------|
| C01 | Signature match is exact | `checkMagic` with checked accesses | equality with "the slice at the offset is the signature", induction on the comparison loop | proved |
| C02 | Identification is sound, complete and ordered | `guessExtension`, `readFile`, the whole generated table `magic.h` | filter/flatMap characterisation; the window covers the table (C03); a signature occurs in the prefix iff in the file | proved |
| C03 | The read-ahead window covers every signature | `roundUpPowerOfTwo` on 32-bit values, `getMinimumBufferSize` | highest-set-bit propagation lemma, fold-max invariant | proved |
| C04 | Every run reports at least one item, and the fallback only when nothing matched | `main` | case analysis over all file states | proved |
| C05 | 'Empty File' is reported exactly for files without bytes | `UnknownExtension` | negation witnesses (absent file, 4 GiB file); partial for readable files below 4 GiB | partial |
| C06 | Reading a file prefix is faithful | `readFile` | direct below 4 GiB; negation for larger files | partial |
| C07 | Identification does not depend on earlier identifications | global `magic::list` as state threaded through calls | closed form: after k calls the list is k+1 copies; negation and first-call partial | partial |
| C08 | Hex dump is lossless | `bin2hex11` | independent hex decoder, round trip by induction | proved |
| C09 | Fixed-width hex numbers are lossless | `int_to_hex` | digit lemma by induction, all widths | proved |
| C10 | JSON escaping is safe and lossless | `JsonEscape` | independent JSON string decoder; negation for NUL; prefix theorem | partial |
| C11 | XML escaping is safe | `XmlEscape` | grammar predicate by induction | proved |
| C12 | XML escaping is lossless | `XmlEscape` | independent reference resolver gives the swapped input; negation, partial | partial |
| C13 | Trimming removes exactly the outer run | `ltrim`, `rtrim`, `trim` with npos | maximality and idempotence | proved |
| C14 | Removing NULs keeps every other byte in order | `erasenulls` | equals filter | proved |
| C15 | Case-insensitive comparison | `iequals`, both overloads | pointwise; negation for wide characters | partial |
| C16 | Duration text denotes the duration | `displayDuration` | independent duration reader, digit round trip | proved |
| C17 | Timestamp text denotes the instant | `convertFILETIME`, `FileTimeToString`; `gmtime_r`/`strftime` as library specification | day-count inversion; negation 1601-1970; partial after 1970 | partial |
| C18 | Bounded integer reads never leave the buffer | `ReadX` family | exact outcome including undefined behaviour; negations at off-by-one and wrap points | partial |
| C19 | Integer reads honour the requested byte order | `ReadX` family | exact outcome including undefined behaviour; negations at off-by-one and wrap points | partial |
| C20 | Length-checked string reads never leave the buffer | `ReadX` family | exact outcome including undefined behaviour; negations at off-by-one and wrap points | partial |
| C21 | Eight-byte reads are exact and safe | `ReadX` family | exact outcome including undefined behaviour; negations at off-by-one and wrap points | proved |
| C22 | GUID comparison is equality | `VerifyGuids` | list induction | proved |
| C23 | Bit-field extraction | `ExtractBits` | bit lemma | proved |
| C24 | Output-format argument | `ParseOutputFormat` | finite map; negation for upper-case names | partial |
| C25 | JSON output is one well-formed JSON document | `Output`, `ExtensionInfo::ToJson`, extractors | inductive JSON grammar, derivation by construction, independent reader | proved |
| C26 | XML output is one well-formed XML document | `Output`, `ToXml` | inductive XML grammar | partial |
| C27 | Text and CSV output are line-structured | `ToCsv` | independent field splitter | partial |
| C28 | Executable kind decision | `Exec::Detailer` | exact decision theorem | partial |
| C29 | Executable inspection never leaves the file | `Exec::Detailer` | bounds characterisation, negation for short files | partial |
| C30 | Mach-O description | `macho.hpp` | header layout specification, decision theorem, negations | partial |
| C31 | RIFF kind decision | `riff.hpp` | decision theorem | proved |
| C32 | MP4 inspection is total | `mp4.hpp` | outcome by buffer length | partial |
| C33 | DWG version decision | `autocad.hpp` | decision theorem | proved |
| C34 | Windows Installer kind decision | `msi.hpp` | decision theorem | proved |
| C35 | Content-type scan finds every declared type | content-type scan | scan invariant against a grammar of declarations | partial |
| C36 | No extension is reported twice for one archive | `addExtension` | state invariant | partial |
| C37 | Archive inspection does not depend on earlier archives | global `extMap` | history characterisation | partial |
| C38 | OLE header round trip | POLE header load/save | field round trip, offset layout | proved |
| C39 | Sector chains are followed faithfully | POLE `AllocTable::follow` | chain induction, both directions | proved |
| C40 | Following a sector chain terminates | `follow` on cyclic tables | fuel characterisation, witness | partial |
| C41 | Allocation table round trip | `AllocTable::load/save` | round trip | proved |
| C42 | Directory listing visits the sibling tree in order | directory listing | tree induction | proved |
| C43 | Directory lookup finds a name exactly when it exists | path lookup | ordered-tree induction | proved |
| C44 | Stream read returns the stream content | large stream read | sector arithmetic | partial |
| C45 | Directory entry names | directory entry names | layout specification, negations | partial |
| C46 | Document kind of a compound file | `guessStreamInfo`, the detail functions | last-match fold over the generated table | partial |
| C47 | VBA decompression inverts the MS-OVBA compression | `Decompress` | refinement to the token-level MS-OVBA container | partial |
| C48 | VBA decompression never leaves its buffers | `Decompress` | bounds and termination invariants, witnesses | partial |
| C49 | Workbook record walk accounts for every record | `ParseEngine::Parse`, record constructors | induction on the stream with an engine invariant; witnesses for the last record | partial |
| C50 | Column names are unique and standard | `ColNumToName` | bijective base 26 | proved |
| C51 | Cell references name the right cell | cell and range references in records and tokens | per-kind theorems and negations | partial |
| C52 | Formula parsing terminates | formula token loop | progress measure; loop witnesses | partial |
| C53 | RK numbers | RK numbers | bit-level specification | partial |
| C54 | ASF object identification | ASF GUID table | whole-table check, injectivity | partial |
| C55 | ASF header walk terminates | ASF object walk | progress measure, loop witness | partial |
| C56 | Word file version | `word.hpp` | exact decision theorem | proved |
| C57 | PowerPoint, Publisher and Visio versions | `ppt.hpp`, `pub.hpp`, `vsd.hpp` | exact decision theorems | partial |
| C58 | Property sets | `propset/*` | stream specification (MS-OLEPS), decoding theorem, negations | partial |
| C59 | PE characteristics listing | PE characteristics | flag-list theorem | partial |
| C60 | PE machine and subsystem names | PE machine/subsystem tables | whole-table check | partial |
| C61 | PE version fields | PE optional header | layout specification | partial |
| C62 | Plain DOS programs are exe | DOS programs | negation | partial |
| C63 | PowerPoint build naming | PowerPoint build table | interval argument over the table | partial |
| C64 | Archive report | `ziphelper::detail` | composition of the scan and the name tests | partial |
| C65 | Package types map to the standard extensions | package type table | whole-table check | partial |
| C66 | Documents for plain archives | archive JSON/XML | grammar derivation, negations | partial |
| C67 | Small streams are read from the mini stream | small stream read | mini-sector arithmetic | partial |
| C68 | Opening a container reads its tables and directory | POLE `load` | refinement to MS-CFB images | proved |
| C69 | Opening a damaged container is refused safely | POLE `load` | negations for short files; refusal theorem | partial |
| C70 | Directory walks terminate | directory walks | fuel characterisation, witness | partial |
| C71 | Every listed entry can be opened | lookup of listed paths | tree induction; negation for lower case | partial |
| C72 | A formula is shown as its tokens | formula tokens, printing | token grammar, induction over token lists | partial |
| C73 | A formula's stored value is shown | `FormulaRecord` | value layout specification | proved |
| C74 | The walk through a compound file ends | `VisitStorage` | tree induction; witness | partial |
| C75 | Every path is reported | path collection | fold invariant | partial |
| C76 | The content of a stream is found by its path | `readStream` | composition of C43, C44, C67 | proved |
| C77 | Every compound file can be reported in every format | output of compound file results | per-format theorems | partial |
| C78 | Extraction writes exactly the stream | `extractStream` | composition with C76 | proved |
| C79 | Listing shows every stream and its size | listing | fold over the directory tree | proved |
| C80 | VBA project name | VBA `dir` stream parse | record grammar, forward simulation | partial |
| C81 | VBA project version | project version | exact wrong value | partial |
| C82 | VBA references | references | partial and negation | partial |
| C83 | VBA modules | modules | whole-file composition with C76 and C47 | partial |
| C84 | Reading a VBA directory ends | VBA `dir` loops | progress measure | proved |
| C85 | Kind of an ASF file | ASF detail | codec list fold | partial |
| C86 | What is shown of an ASF file | ASF report | object grammar, forward simulation, JSON/XML readers | partial |
| C87 | ASF files are reported on every platform | ASF on Linux | negation | partial |
| C88 | Sheets of a workbook | BOUNDSHEET8 and sheet substreams | induction over globals then sheets with an engine invariant | partial |
| C90 | Encrypted workbooks | FILEPASS | the walk after an encryption record keeps the engine unchanged; independent layout of the three methods (`Spec/Pass.lean`), documents derived from it | partial |
| C89 | Reports about compound files are documents | JSON and XML of compound file results | texts of results come from tables (walk invariant); grammar derivation with a JSON/XML reader | partial |
| C91 | Reports about workbooks are documents | JSON and XML of all records, sheets and the workbook | per-record derivation in a JSON/XML grammar; rejection lemmas propagate from the text to the document | partial |
| C92 | Reports about VBA projects are documents | JSON and XML of VBA projects | as C91; forged element by derivation of the report | partial |
| C93 | The program as a whole | `main`, `guessExtension` with all extractors | loop equals gathering over the matching signatures; every result comes from a source whose text has a grammar derivation; documents embed in documents | partial |
| C94 | WordPerfect files are reported | WordPerfect `Detailer` and its printing | every run is undefined behaviour in JSON and XML; computation for text and CSV | partial |
| C95 | Macros in Office Open XML packages are reported | `GetVBA` with an unopened `Storage` | scan theorem (C35) forces the analysis; the analysis of an unopened storage is undefined behaviour | partial |
| C96 | What is shown of the records of a workbook | `ParseStream` with the constructors of the record classes and `Rec.toJson`, `Rec.toXml` | independent layout of each record kind (`Spec/Records.lean`); parsing lemma for each; walk over the stream keeps the record; the fields are the facts of the record | partial |
| C97 | A name in a report stands for one number | the name functions of all extractors (`GetRecordTypeStr`, `GetFunctionName_FTab`, `CPToString`, ...) | injectivity of table look-up from pairwise different names (kernel evaluation over the finite table); the name is the first string of the JSON of a record | partial |
| C98 | Files are identified as the list of file types says | `guessExtension` with the table of magic.h | data.xml is transcribed item by item into `Spec/Described.lean`, with a decoder for the signatures as they are written there; the two tables are compared row by row by the kernel; with C02 this gives the report for every file | proved |
| C99 | Names of record kinds, functions and commands | `GetRecordTypeStr`, `GetFunctionName_FTab`, `GetFunctionName_CeTab` | tables of the specification, as runs of successive numbers, compared with the tables of the model by the kernel; looking up agrees for every number | proved |
| C100 | Documents in compound files are told as they are | `guessStreamInfo`, `Guess` (oless.hpp), the detailers of Office documents, the property sets and the reports | the walk is turned into a list of what each object adds (`Lemmas/Documents.lean`); the table of markers is compared with the document types of data.xml; C56, C57, C58, C46 and C77 are put together | partial |
| C101 | The report about a workbook is the workbook | `ParseStream`, `Detailer` (Excel), `ToJson`/`ToXml` of workbooks, sheets and records | C88 gives which record is listed where; C96 gives what is shown of each; the printer of lists is proved once for any relation between a record and its entry (`Lemmas/ReportExcel.lean`, `Lemmas/ReportExcelXml.lean`) and used with the entries of the specification | partial |
| C102 | The report about a compound file shows every object that counts | `Guess` (oless.hpp), `Analyze` (vbahelper.hpp), `Detailer` (Excel), the printers of all results | what each object adds to the results (C100) is matched with how each result is printed (C89, C101); the list of items of the report is the list of objects that count | partial |
| C103 | Streams that are written keep their bytes | the writing half of pole.h: tables, chains, `extendFile`, `saveBlock`, `StreamIO::write/read/setSize` (`Model/PoleWrite`, `Model/PoleSession`) | invariant `Holds` (`Spec/Storage.lean`): every stream, the directory, the mini FAT and the mini stream own chains of sectors that do not meet, and the known bytes stand in the file where the chains say; kept by every step, induction over the calls | partial |
| C104 | A stream of any size can be written | `StreamIO::setSize`, `StreamIO::write` with the threshold | exact condition under which the array is freed with the wrong `delete` | partial |
| C105 | A stream that is opened shows what was written | `Stream` constructor, `streamIO` | the chain that is followed is the one of the invariant; counterexample by evaluation for two objects | partial |
| C106 | A storage is a map from paths to streams | `DirTree::entry` with creation, `findClosest`, `unused`, and `Storage::entries/exists/isDirectory` (`Model/PoleStorage`) | `Spec/Paths.lean` gives the map and the answers; insertion into the search tree of siblings keeps it a search tree with one name more (`Lemmas/PoleInsert`, `PoleLink`); the directory shows the map (`Shows`), kept by every request | partial |
| C107 | What is created lies in storages that list it | as C106 | from the map: a prefix of a path that is there is there; counterexample by evaluation | partial |
| C108 | Workbooks of older versions of Excel | `ParseStream`, `ParseRecord` for the versions before BIFF8, `BoundSheet5Record`, `BOFRecord` | invariant `Old` (`Lemmas/OldWorkbook.lean`): the exact list of record objects, and for each sheet the records dealt to it; induction over the substreams; the report fails at the first record | partial |
| C109 | Deleting in a compound file | `deleteByName`, `deleteNode`, `deleteLeaf`, `deleteEntry`, `findParentAndSib`, `findSib` (`Model/PoleDelete`) up to the call of `flush` | taking an entry out of the search tree leaves a search tree with the other names (`Lemmas/PoleDelete`); induction over the entries in use and the depth of the path for storages with all they hold (`Lemmas/PoleDeletes`); counterexamples by evaluation | partial |
| C110 | What was written to a compound file is in it when it is opened again | `StorageIO::flush` with the `save` functions, then `StorageIO::load` on the bytes (`Model/PoleFlush`); bytes of uninitialised buffers are a parameter | a flush writes header, FAT, mini FAT and directory to their sectors and leaves data sectors alone (`Lemmas/PoleFlush`, `PoleReopen`); what is loaded is the same up to unused entries (`PoleLoaded`, `PoleAgain`); counterexamples by evaluation in stages with a faster flush proved equal (`PoleQuick`) | partial |
| C111 | Reading a stream of a compound file byte by byte | `StreamIO::getch`, `updateCache`, `read`, `seek` (`Model/PoleWrite`, `PoleGetch`) | `Spec/Reading.lean` gives the answers from the bytes; the cache is empty or holds bytes of the stream, kept by every call (`Lemmas/PoleGetch`); counterexample by evaluation | partial |
| C112 | A storage in use: whatever is written, deleted, flushed and closed, in whatever order, all answers are right and the file shows it | Model/PoleUse: sessions with deletes (followed by the flush that deleteByName does), flushes and closing, over the writer of C103-C110. | Invariant: the tables and the directory agree with what is in the file wherever they are not marked as changed (relative to the snapshot of the last flush). Requests and deletes keep it, a flush renews it; from it the file opened again is the storage. Induction over the history. | partial |
| C113 | A compound file, whoever wrote it, is the map from paths to streams that it shows | Spec/CfbFile: what a compound file is and the map it shows, without the code of the library; the code as modelled for C68 and C106. | C68 gives the tables and entries that are loaded; from the parts the invariant of C106 is built (chains apart, entries with their chains, directory in shape), and the history theorem of C106 applies. | partial |
| C114 | Compound files can be opened, changed and flushed again and again, and remain compound files that show the changes | Spec/CfbFile: compound files and which of them are as the library writes them; sessions of C112 on what is opened. | A file that is opened is its own snapshot: everything is saved, so the invariant of C112 holds at once. After a flush the parts of the new file are read off the invariant: header, tables where in use, entries, chains, bytes; so it meets the same description, and induction over the rounds goes through. | partial |
| C115 | The list of the FAT's sectors of large compound files survives flushing | Spec/Cfb: the chain of sectors that list the FAT, as in MS-CFB 2.5. Spec/CfbMeta: the list as the library keeps it while the FAT grows. Model/PoleFlush: the part of flush that writes the list, and what getbbatBlocks leaves behind for it. | Induction over the sectors of the FAT for the list in memory; what is written is followed word by word, and the flush is shown not to touch it before. | partial |
| C116 | Random strings and the names of temporary files | Model/Random: both functions on an arbitrary sequence of random numbers. | Induction over the length; for every string a sequence of numbers that makes it is given. | partial |
| C117 | No request to a storage has undefined behaviour | The model of the writing side of pole.h (Model/PoleWrite, PoleSession, PoleStorage) with undefined behaviour as an outcome of its own. | Invariant of C106 at the point of the request; then each request by cases: lookups by the sibling trees, creation by induction on the path, reads by a bound on every copy, size changes by C104. | partial |
| C118 | Statistics about a compound file | `Storage::GetStats` and the functions it calls (`Model/PoleStats`), on what `StorageIO::load` makes of a file. | Opening gives the tables of the file (C68); a slot is loaded as valid exactly if its type is not 0, by its bytes; counting over the loaded list is counting over the slots. | partial |
| C119 | The list of all streams | `CollectStreams` and `Storage::GetAllStreams` with a step budget (`Model/PoleCollect`). | Induction over the depth of the storages and, within one, over the weight of the trees in the queue: the walk ends and adds what `Spec.Inside` describes. The path of each is looked up by C43's walk. | partial |

## Where the code disagrees with the property, or the proof is partial

Every falsity below is itself a theorem: a concrete witness or a family of witnesses, proved about the model.
The `_partial` theorems cover the rest; the full English statement stays in `properties.jsonl`.

* **C05** ('Empty File' is reported exactly for files without bytes). Proved for readable files below 4 GiB. False for paths that cannot be opened and for files of exactly 4 GiB (both reported as empty): proved as C05_absent_reported_empty and C05_4GiB_reported_empty.
* **C06** (Reading a file prefix is faithful). Proved below 4 GiB; for larger files the length is taken modulo 2^32 (C06_read_prefix_modulo), so the property is false there (C06_4GiB_wrong).
* **C07** (Identification does not depend on earlier identifications). False of the code: the signature table grows with each call, and after k calls every item is reported k+1 times (C07_repeated_reports, C07_not_repeatable). Holds for files without any match.
* **C10** (JSON escaping is safe and lossless). Safety for all byte strings; losslessness for NUL-free strings. False with NUL bytes, where output stops (C10_json_escape_not_lossless).
* **C12** (XML escaping is lossless). Lossless for strings without angle brackets. False otherwise: < and > are exchanged (C12_xml_escape_reads_swapped gives the exact behaviour for all strings).
* **C15** (Case-insensitive comparison). Narrow strings: proved. Wide strings: proved for code units below 256, false beyond (C15_iequals_wide_wrong).
* **C17** (Timestamp text denotes the instant). Proved from 1970-01-01 00:00:01 to the end of the 64-bit range while errno is not EOVERFLOW, and for the first second of 1601. False for the instants between (printed as 1601) and dependent on errno; C17_timestamp_iff_partial says exactly which instants are right.
* **C18** (Bounded integer reads never leave the buffer). Complete outcome description. False of the code: the bound check is off by one and wraps (C18_ushort_unsafe, C18_uint_unsafe).
* **C19** (Integer reads honour the requested byte order). Two-byte reads: proved. Four-byte reads decode in the opposite order (C19_uint_reversed_partial, C19_uint_order_wrong).
* **C20** (Length-checked string reads never leave the buffer). Proved when offset+length stays below 2^32; false on wrap-around (C20_string_unsafe).
* **C24** (Output-format argument). Lower-case names are recognised; the names as advertised (upper case) are not (C24_usage_names_ignored).
* **C26** (XML output is one well-formed XML document). Proved for file names without control characters other than tab, LF, CR; false otherwise (C26_control_character_breaks).
* **C27** (Text and CSV output are line-structured). Line structure and field recovery proved for separator-free fields (which all table rows have); false for fields with commas (C27_csv_comma_breaks). The columns of records with export functions of their own: C27_macho_fields, C27_unknown_fields, C27_zip_fields, C27_compound_fields.
* **C28** (Executable kind decision). Proved for every file of at most 2^32-104 bytes with a complete DOS header. False close to 4 GiB (C28_wraps).
* **C29** (Executable inspection never leaves the file). Exact characterisation: inspection leaves the file iff it has fewer than 64 bytes. The whole run on a file MZ is undefined (C29_short_file_ub).
* **C30** (Mach-O description). Proved for little-endian headers in files of at least 28 bytes. False for big-endian headers (C30_big_endian_misread) and for shorter files, where bytes outside the file are read (exact: C30_in_bounds_iff_partial).
* **C32** (MP4 inspection is total). Complete outcome by buffer length; false below 16 bytes (C32_short_file_throws: the run ends with an uncaught exception).
* **C35** (Content-type scan finds every declared type). Proved for every text whose declared values are non-empty, whatever is done with them. False when a value is empty (C35_empty_value_swallows); what is then taken is characterised exactly (C35_scan_taken).
* **C36** (No extension is reported twice for one archive). Proved for every archive a fresh process inspects, apart from two pairs of marker entries. False for those pairs (C36_marker_pair_repeats).
* **C37** (Archive inspection does not depend on earlier archives). The exact effect of the history is proved for every archive; independence holds when no declared extension was seen before. False otherwise (C37_second_archive_lost).
* **C40** (Following a sector chain terminates). False of the code: a cyclic table is followed for ever (C40_false). Exact characterisation of termination proved.
* **C44** (Stream read returns the stream content). Proved for large streams with all sectors present and positions up to the end. False behind the end (C44_false: buffer overflow). False in a file that was cut off: all bytes are reported as read, where sectors are missing the last one that is there is repeated (C44_cut_repeats_wrong), or bytes nobody wrote are given out (C44_cut_unwritten_wrong).
* **C45** (Directory entry names). Windows: proved for names without a unit whose low byte is zero, false for such a unit (C45_windows_false). Linux: false for every name of two or more units (C45_linux_false).
* **C46** (Document kind of a compound file). Proved for every compound file whose results are made and whose paths do not become markers by losing high bytes; results are made exactly when every object can be looked at (C46_made_iff). False for an empty workbook stream and for a VBA storage without a project (undefined behaviour), for paths with other high bytes (C46_case_false), and on Linux for every file with names of two units or more (C46_linux_false). Subtypes of the table are never reported (C46_subtypes_lost).
* **C47** (VBA decompression inverts the MS-OVBA compression). Proved for every container of compressed chunks below 4 MB. False for raw chunks (C47_raw_false, every such container of one raw chunk).
* **C48** (VBA decompression never leaves its buffers). Writes, shifts and termination proved for every input below 4 MB. Reads leave the input for an empty stream, for one trailing byte and for raw chunks; at 4 MB the output buffer is written out of bounds.
* **C49** (Workbook record walk accounts for every record). Proved for every stream followed by one to four further bytes: listed records are records of the stream in order, only interpreted types can be missing (C49_listed_partial); complete with continuations when no record is interpreted (C49_complete_partial), and for BIFF8 workbooks whose records all have the data their kind needs (cells, formulas, names, strings, sheets and so on), with sheets declared before the second BOF record (C49_whole_partial). False of the last record of a stream (C49_final_wrong, C49_final_empty_wrong).
* **C51** (Cell references name the right cell). Proved for formula cells and for reference tokens (same sheet, other sheet, areas in other sheets, shared formulas). False for areas in the same sheet, table tokens, RK and multi-blank cells; undefined behaviour for blank, boolean and string cells.
* **C52** (Formula parsing terminates). False of the code (C52_false, C52_elf_false, C52_attr_false, C52_choose_false). Proved for every formula without the tokens those concern.
* **C53** (RK numbers). Proved for non-negative integers that are not in hundredths. False for negative integers, hundredths and every positive normal floating point number.
* **C54** (ASF object identification). Proved for every identifier except that of compatibility objects, which is not recognised (C54_compatibility_wrong).
* **C55** (ASF header walk terminates). Settled for every file, on Linux and Windows: the walk ends exactly unless the header of the file leads to a header extension in which it comes to a place that is no object (C55_ends_partial); of all those files the property is false, none is ever reported (C55_stuck_wrong). Whether an object before that place fails first is not told apart there; C55_short_extension_wrong gives a family for which the loop is shown not to end. Simpler cases: files without header extensions (C55_walk_ends_partial), Windows files whose header and extensions are made of objects (C55_framed_partial) or not (C55_broken_wrong). Nothing is missing except that files of 4 GB and more are not covered.
* **C57** (PowerPoint, Publisher and Visio versions). PowerPoint: proved for 4-byte unsigned long, false for 8-byte (C57_ppt_linux_wrong); in bounds on both. Publisher and Visio: exact outcome; short streams are read out of bounds (C57_short_streams_ub).
* **C58** (Property sets). Proved for every stream of 2-byte non-negative integers, reals, truth values, times, code page strings and (Windows) ASCII wide strings. False for 4-byte integers, negative integers, wide strings on Linux and types not read; reads outside the stream for wide strings of length 0 and offsets behind the end.
* **C59** (PE characteristics listing). Proved for every file of at most 2^32-104 bytes and every characteristics value; false for larger files (C59_wraps).
* **C60** (PE machine and subsystem names). Machine names: proved for every value and header position. Subsystem: proved below 10 with zero DLL characteristics, false otherwise (C60_subsystem_wrong).
* **C61** (PE version fields). Proved when the optional header ends within the first 2047 bytes; false beyond (C61_header_beyond_2047).
* **C62** (Plain DOS programs are exe). Proved exactly which files with a DOS header are reported as exe (C62_exe_iff_partial, up to 2^32 - 104 bytes). The property is false: the PE signature is never looked at (C62_signature_ignored).
* **C63** (PowerPoint build naming). Every number: the name is that of a release within ten. False for three exact build numbers (C63_builds_misnamed).
* **C64** (Archive report). Proved for every archive of a fresh process whose content-type list has no empty value. False behind an empty value (C64_empty_value_wrong). C64_taken_report is the exact report for every archive.
* **C65** (Package types map to the standard extensions). Office types: proved. OpenDocument: proved apart from presentations, which get opd instead of odp (C65_odf_presentation_wrong).
* **C66** (Documents for plain archives). Proved for entry names and comments of printable ASCII without quotes, backslashes and markup and for compressed sizes below 2 GiB. False for other names, which are written unescaped (C66_json_entry_name_breaks, C66_xml_entry_name_breaks), and for larger entries (C66_large_entry_negative).
* **C67** (Small streams are read from the mini stream). Proved for positions up to the end of the stream; behind the end see C44_false, whose witness is a small stream.
* **C69** (Opening a damaged container is refused safely). Files of 512 bytes and more that are no compound file or have an unacceptable header: proved. False for shorter files (C69_short_file_false, every such file) for a missing directory (C69_no_directory_false), and for every compound file cut off before the end of its FAT, mini FAT or directory (C69_cut_false; C69_fat_cut_false, C69_minifat_cut_false and C69_directory_cut_false need no whole file to start with). A file cut off behind them is opened and shows the same storages and streams (C69_uncut_partial). The theorems on cut files are for files with at most 109 FAT sectors, except C69_fat_cut_false and the two like it.
* **C70** (Directory walks terminate). False of the code: cyclic links (C70_false). Exact characterisation for listing proved.
* **C71** (Every listed entry can be opened). False of the code for names with lower-case letters (C71_false); proved for names without.
* **C72** (A formula is shown as its tokens). Proved for every sequence of the token kinds listed in the specification, up to the printed record. False for memory errors, 3-D area errors, command calls, strings outside Latin-1 and formulas with extra data.
* **C74** (The walk through a compound file ends). Proved for every file whose directory is a finite tree. False for a storage that contains itself (C74_false).
* **C75** (Every path is reported). Proved for every file one of whose results can carry paths. False for WordPerfect documents (C75_wordperfect_false) and files whose only results are VBA projects.
* **C77** (Every compound file can be reported in every format). Text and CSV: proved for all results. JSON and XML: proved on Windows, where a report is made exactly when there is no WordPerfect result and every workbook can be printed (C77_windows_iff); false on Linux (C77_linux_false: every file whose names have two units or more) and for WordPerfect documents (C77_wordperfect_false).
* **C80** (VBA project name). Proved for every directory without a compatibility record. With one, every directory below 131119 bytes ends in an exception (C80_compat_false).
* **C81** (VBA project version). False of the code for every project: C81_version_false gives the numbers that are reported instead, C82_second_reference_false a project where both are wrong.
* **C82** (VBA references). Proved for projects without references. False otherwise: only the first reference is reported (C82_references_false).
* **C83** (VBA modules). Proved on Windows for projects without references and for projects whose references do not put the search for the modules out of step, up to the whole file (C83_project_partial). The program misreads the type of a reference and then looks for the modules two bytes at a time: for references of odd length all modules are lost (C83_references_wrong). False on Linux (C83_linux_false); undefined behaviour when the stream of a module is missing (C83_missing_stream_false).
* **C85** (Kind of an ASF file). Proved on Windows for files whose header lies in the first 65536 bytes and with at most one codec list, unless it has a single video codec or several codecs with audio and no video: these are reported as asf (C85_single_video_wrong, C85_several_audio_wrong, for every such file). Every file with a larger header is reported as asf whatever its codecs (C85_large_header_wrong; what decides for files with any number of codec lists: C85_decided_partial): the extractor reads the file again only if it was given 512 bytes, but it is given 65536.
* **C86** (What is shown of an ASF file). Proved on Windows for every valid file with a header of at most 65536 bytes and of objects that the program understands rightly, and for all valid files up to the way the program reads them. False for content descriptions (shown under another name), DWORD attributes (bytes reversed), empty lists (malformed JSON) and texts with quotation marks or ampersands (written unescaped), and of every file with a larger header, of which nothing is shown (C86_large_header_wrong).
* **C87** (ASF files are reported on every platform). False: on Linux every file whose first object gives the file properties ends in an exception (C87_linux_wrong). Windows: C85, C86.
* **C88** (Sheets of a workbook). Proved for BIFF8 workbooks whose walk ends without error; it does end, and every record is listed, if all records have the data their kind needs (C88_complete_partial). Both with sheet names of one byte per character and, on Windows, of two (shown in UTF-8). False on Linux for wide names (C88_wide_name_wrong) and for declarations behind the beginning of a sheet (C88_late_declaration_wrong).
* **C90** (Encrypted workbooks). Proved for obfuscation, RC4 and CryptoAPI and streams below 2 GB (less 128 KB): the records behind the FilePass record are ignored (C90_rest_ignored_partial), and what is shown is the exact JSON and XML of the method (C90_shown_partial for obfuscation and RC4). CryptoAPI, Windows: shown apart from the verifier hash, which is read from the start of the record, and the second reserved field, which shows the first (C90_api_shown_partial, C90_api_hash_wrong). CryptoAPI, Linux: the report always ends in an exception (C90_api_linux_wrong). False of a truncated FilePass record (C90_short_wrong). Missing: larger streams, in which the place behind the FilePass record wraps.
* **C89** (Reports about compound files are documents). Proved end to end for every result (compound documents, workbooks, VBA projects): JSON when real numbers are written as numbers and texts written without escaping need none, XML when no name or text has a control character. False in XML for every path with a control character, as that of the usual property streams (C89_xml_false); false in JSON for the real number NaN (C89_nan_false). Result of the WordPerfect kind: printing it is undefined behaviour (dangling object).
* **C91** (Reports about workbooks are documents). Proved when the texts that are written without escaping (user name, function group name, code name, add-in name, link paths and sheet names of links, error text) need none. False otherwise (C91_json_false, C91_xml_false), and in particular of every workbook with a link to another workbook: the path is read from the byte before it, which is a control character (C91_link_path).
* **C92** (Reports about VBA projects are documents). JSON: proved when the names of the references need no escaping; false otherwise (C92_json_false). XML: proved when also the source texts are ASCII and do not contain the end of a CDATA section; otherwise the author of the macro can put elements of their own into the report (C92_source_false). C92_analyzed links the theorems, stated about reading the directory, with the analysis of a file.
* **C93** (The program as a whole). C93_identified is complete (files below 4 GiB). The documents are proved well formed for every file whose texts need no escaping where the code does not escape; compound files and ASF files are composed end to end (C93_compound, C93_asf_partial). What ziplib makes of an archive is a parameter.
* **C94** (WordPerfect files are reported). Text and CSV: proved. JSON and XML: false for every file with the signature (C94_header_false): the header was a local object that is gone when the report is printed.
* **C95** (Macros in Office Open XML packages are reported). False for every package that declares a VBA project and has a part whose name ends in bin (C95_macros_false): the compound file is never opened, and the version is read from memory that was never written. Proved: the project is reported, without details, when there is no such part.
* **C96** (What is shown of the records of a workbook). Proved for BOF, CodePage, Country, WriteAccess, CodeName, String, FnGroupName, BuiltInFnGroupCount, BoundSheet8, SST and Lbl records with texts of one byte per character (shared strings and, on Windows, names of sheets also with two), and for SupBook records of the workbook itself. WinProtect, Row, AreaFormat, MulBlank and RK records: what is shown is given exactly for every record (C96_other_shown_partial) and proved to be wrong (bytes swapped, fields of other meaning, the cell to the left, hundredths cut off). False also for: the highest version that edited the workbook (only its lowest bit is shown), user and code names of two bytes per character (the JSON cannot be read), the formula of a defined name (not shown), shared strings with formatting, shared strings that go on in a Continue record, the icon flag of external names (exact: C96_icon_wrong) and the second row and column shown for a formula (exact: C96_formula_flags_wrong): each proved as C96_..._wrong. Links to other workbooks are shown with a wrong path and without their sheets (C96_link_wrong); of runs of formats and shared formulas only the length is shown (C96_runs_wrong, C96_shared_wrong).
* **C97** (A name in a report stands for one number). Proved for all tables except two: the characteristics of executables (bits 6 and 10 have the same name, C97_characteristics_wrong) and the brands iso3 and iso4 (C97_brand_wrong; the other brands: C97_brands_partial).
* **C100** (Documents in compound files are told as they are). Proved on Windows for every directory tree whose paths do not become other paths by losing high bytes. Missing: workbooks (C83 and C88 give what is shown of them), macros (C89), WordPerfect documents, which cannot be reported (C77_wordperfect_false), and the subtypes of data.xml, which are never looked for (C46_subtypes_lost). On Linux nothing is reported of such files (C77_linux_false). The document types are transcribed from data.xml.
* **C101** (The report about a workbook is the workbook). Proved for every workbook as described in Workbook.Valid whose records all have an entry (Spec/Book.lean: Entry, EntryX): those whose content is shown in full, formulas with their cell, value and text (defined names are those the workbook defines), those of which the program takes something (C96, with the mistakes given there), and those of which only kind and length are shown. Missing: workbooks with cells that hold texts, blanks, booleans or errors (printing those is undefined, C96), formulas with external names (C72 gives their texts), links to other workbooks, continued records and encrypted streams; names of sheets with a NUL (C10) or, in XML, with angle brackets (C12).
* **C102** (The report about a compound file shows every object that counts). Proved for JSON and XML on Windows. When all objects that count are macros the code tells neither paths nor properties (`carriers`: only results that are not macros can carry them). Missing: plain text, WordPerfect documents (C77_wordperfect_false), in XML texts with characters that may not stand there (C89_xml_false), workbooks with records that have no entry (C101), macros whose references need escaping (C92), real numbers that are not numbers (C89_nan_false). On Linux nothing is reported of such files (C77_linux_false).
* **C103** (Streams that are written keep their bytes). Proved for every history of sensible calls whose steps are defined. False, or undefined: a read that begins behind the end of the stream (C103_read_behind_end_wrong), a stream that crosses the threshold of 4096 bytes (C104), two objects for one stream (C105). Missing: tables of more than 0xfffffffc sectors; that the calls return at all when the disk is full is not modelled.
* **C104** (A stream of any size can be written). False (C104_wrong): a stream with bytes that grows to the threshold of 4096 bytes, or shrinks below it and keeps bytes, makes the program free an array with the wrong operator. C104_setSize and C104_crossing give the exact condition.
* **C105** (A stream that is opened shows what was written). Proved for streams that are not open. False for two objects of one stream (C105_two_objects_wrong): each keeps its own list of sectors.
* **C106** (A storage is a map from paths to streams). Proved for every history of sensible requests whose steps are defined, from any storage that matches the map; a new storage does. Missing: what is missing in C103 and C105; directories of 0xffffffff entries.
* **C107** (What is created lies in storages that list it). False: a stream can be created below a stream, where no listing shows it (C107_below_stream_wrong). Proved: whatever is there lies in a storage that lists it, or in a stream.
* **C108** (Workbooks of older versions of Excel). False in several ways, each proved: kind, visibility and place of BIFF5 sheets are never shown (C108_described_wrong); sheets not stored in the order of their declarations are shown with records of others (C108_order_wrong); an embedded chart is taken for the next sheet (C108_embedded_wrong); no report about a workbook with a BOF record as short as those versions have it can be printed in JSON or XML without reading behind its end (C108_report_wrong, C108_sheets_report_wrong). C108_dealt is the exact behaviour; C108_sheets_partial and C108_single say what holds. Missing: encrypted streams, declarations behind the first sheet.
* **C109** (Deleting in a compound file). False of the root (C109_root_wrong), of a stream that is open (C109_open_wrong) and of a stream with streams below it (C109_below_stream_wrong). C109_delete_partial: for everything else deleting is defined, ends, and leaves the map without the path and what is below it, so C106 applies to what follows. The flush at the end of deleteByName is in C112.
* **C110** (What was written to a compound file is in it when it is opened again). False of new files without streams and of files that end in their last directory sector (C110_empty_wrong, C110_four_streams_wrong: opening them uses memory never written), of a storage with one stream of 30723 bytes (C110_fat_wrong: the FAT grows by a sector that is listed in the header and never written), and in general of every history after which the file ends before the end of a sector of its tables (C110_short_false), of names with units above 255 or of more than 32 units (C110_names_wrong), and on Linux (C110_linux_wrong). C110_reopen_partial and C110_read_back_partial: for every other history on Windows the flush succeeds and what is opened again shows the same map. Missing: FATs of more than 109 sectors, streams of 4 GB and more. Deleting and several flushes are in C112.
* **C111** (Reading a stream of a compound file byte by byte). False of a stream that is written between the reads, as the cache is not renewed (C111_written_wrong). C111_reading_partial: for every sequence without writes. Missing: reads of blocks that begin behind the end (C103_read_behind_end_wrong).
* **C112** (A storage in use: whatever is written, deleted, flushed and closed, in whatever order, all answers are right and the file shows it). C112_history_partial, C112_reopen_partial, C112_read_back_partial, C112_no_failure_partial. Missing: what is false (C106, C109, C110: streams below streams, streams deleted while open, names and sizes that cannot be stored, files that end before the end of a sector of their tables (C112_short_false), Linux), FATs of more than 109 sectors (for their list see C115; beyond 173 it is wrong). For files that are opened again and then changed see C114.
* **C113** (A compound file, whoever wrote it, is the map from paths to streams that it shows). C113_open_partial, C113_history_partial. Missing: what is false (Linux, where names are read wrongly, C45; names in an order the library does not expect, C71), and what C106 leaves out.
* **C114** (Compound files can be opened, changed and flushed again and again, and remain compound files that show the changes). C114_history_partial, C114_valid_partial, C114_new_partial, C114_generations_partial; C114_class_id_wrong: class identifiers (and all the library does not load) of entries in directory sectors that are written are lost; C114_no_minifat_false, C114_no_minifat_wrong: in a valid file without mini FAT, once any stream below 4096 bytes has a byte, no flush succeeds: it writes behind the end of a buffer; C114_short_false: changes after which the file ends before the end of a sector of its tables make it unreadable. Missing: what C112 and C113 leave out (where the code is wrong), files with other sector sizes, names of 32 units; wide names (false, C110_names_wrong), and files whose FAT does not mark its own sectors.
* **C115** (The list of the FAT's sectors of large compound files survives flushing). C115_new, C115_grows (the list in memory is right, however far a storage grows), C115_listed_partial: up to 172 FAT sectors the list in the file is right. C115_listed_wrong: from 174 on it is wrong for every reader, and the library does not find its own FAT: it puts 63 numbers in a sector, where the format and its own reader have 127, and goes on in the same buffer (173 depends on memory that is not initialised). C115_defined_iff: when writing the list reads outside of it; C115_foreign_wrong: this happens with all files by other programs with 235 FAT sectors in one list sector, and so on, once their FAT grows. Missing: nothing but what is false.
* **C116** (Random strings and the names of temporary files). C116_random, C116_every, C116_name, C116_even (different draws below 62 give different names). False: with an empty set the function is undefined (C116_empty_wrong); nothing makes sure that the name is new (C116_new_false). That 2^32 seeds give only as many of the 62^24 names is not modelled (the generator is an arbitrary source).
* **C117** (No request to a storage has undefined behaviour). False: exactly the requests that take a stream with bytes over the threshold of 4096 bytes, or setSize back below it, delete an array with delete (C117_crossing_wrong, C117_any_storage_partial). C117_requests_partial: every other request is answered, and right; C117_in_use_partial: also after deletes, flushes and closing. Missing: reading from behind the end (false, C103) and a stream opened twice (false, C105); in storages of more than 512 GB, with more than 4 GB of small streams or more than 2^20 entries, that requests which create several entries at once or write to a stream below 4096 bytes come to an end (they do nothing else that is wrong); within these limits C117_answered_partial and C117_program_partial show that every request, and every program, is answered, C117_in_use_answered_partial the same after deletes, flushes and closing, C117_live_program_partial whole programs with these, and C117_edit_program_partial programs that change a compound file by another program.
* **C118** (Statistics about a compound file). C118_stats_partial, C118_consistent; C118_room_partial, C118_small_room_partial, C118_new_partial: what was written is never in blocks that are reported as free. False of files without a mini FAT, which have 128 free small blocks by the statistics and none in fact (C118_no_minifat_false). Directories must have the types of MS-CFB and names in used slots (ProperSlots).
* **C119** (The list of all streams). C119_all_partial, C119_root_partial, C119_storage_partial: for well-formed directories in which no storage is inside itself. False of directories with a cycle, where the call does not return (C119_cycle_wrong), and of names without a slash at the end, where the listed paths are wrong (C119_no_slash_wrong).

## Trusted base

* Lean 4.33.0 kernel; axioms `propext`, `Classical.choice`, `Quot.sound` only. `AXIOMS.md` lists them for each claimed theorem (output of `#print axioms`).
* The reading of the C++ source recorded in the model's comments. The code was not run.
* The description of library behaviour used by the model (iostream formatting, `std::string`, `std::map`, libc calendar).
* Floating point: a value is its bit pattern. How the library prints it is an arbitrary function in every theorem.
* `std::vector` growth (for dangling references): capacities double, as in libstdc++; allocation of a size that fits in memory succeeds.
* Lake, the Lean elaborator and the compiler are not trusted: no theorem is closed by evaluation outside the kernel.
* The specifications. There was no network, so the published formats (MS-XLS, MS-CFB, MS-OVBA, MS-OLEPS, ASF, PE, Mach-O, ISO
  base media) could not be consulted: the layouts in `lean/Verif/Spec` are written from knowledge of these formats. Texts that
  the program words in its own way (names of bits, of brands, of processors and the like) necessarily have the wording of the program.
  The long tables of names in `Spec/Functions.lean` (functions, commands, kinds of records) were taken from the source by a
  script and looked over; `Spec/Described.lean` was taken from `fileid/data.xml`, which is another file than the one modelled.
  Theorems against such tables say that the model's table is this one; that the table is right is not proved.
