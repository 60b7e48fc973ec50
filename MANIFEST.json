{
 "claims": [
  {
   "property": "C01",
   "status": "proved",
   "theorems": [
    "Fileid.Props.C01_signature_match"
   ],
   "note": "Every buffer below 2^63 bytes, every signature, every 32-bit offset."
  },
  {
   "property": "C02",
   "status": "proved",
   "theorems": [
    "Fileid.Props.C02_identification",
    "Fileid.Props.C02_sound_and_complete"
   ],
   "note": "Every content below 4 GiB, arbitrary extractors. Table facts (size field = signature length, non-empty, inside the window) are checked over the whole generated table."
  },
  {
   "property": "C03",
   "status": "proved",
   "theorems": [
    "Fileid.Props.C03_round_up_least",
    "Fileid.Props.C03_round_up_rest",
    "Fileid.Props.C03_window",
    "Fileid.Props.C03_window_table"
   ],
   "note": "All 32-bit arguments; every table whose rows end at or below 2^31."
  },
  {
   "property": "C04",
   "status": "proved",
   "theorems": [
    "Fileid.Props.C04_at_least_one",
    "Fileid.Props.C04_unknown"
   ],
   "note": "Every file state and arbitrary extractors; runs that end normally."
  },
  {
   "property": "C05",
   "status": "partial",
   "theorems": [
    "Fileid.Props.C05_empty_iff_partial",
    "Fileid.Props.C05_absent_reported_empty",
    "Fileid.Props.C05_4GiB_reported_empty"
   ],
   "note": "Proved for readable files below 4 GiB. False for paths that cannot be opened and for files of exactly 4 GiB (both reported as empty): proved as C05_absent_reported_empty and C05_4GiB_reported_empty."
  },
  {
   "property": "C06",
   "status": "partial",
   "theorems": [
    "Fileid.Props.C06_read_prefix_partial",
    "Fileid.Props.C06_read_prefix_modulo",
    "Fileid.Props.C06_4GiB_wrong"
   ],
   "note": "Proved below 4 GiB; for larger files the length is taken modulo 2^32 (C06_read_prefix_modulo), so the property is false there (C06_4GiB_wrong)."
  },
  {
   "property": "C07",
   "status": "partial",
   "theorems": [
    "Fileid.Props.C07_repeated_reports",
    "Fileid.Props.C07_not_repeatable",
    "Fileid.Props.C07_unidentified_partial"
   ],
   "note": "False of the code: the signature table grows with each call, and after k calls every item is reported k+1 times (C07_repeated_reports, C07_not_repeatable). Holds for files without any match."
  },
  {
   "property": "C08",
   "status": "proved",
   "theorems": [
    "Fileid.Props.C08_hexdump_roundtrip",
    "Fileid.Props.C08_hexdump_length",
    "Fileid.Props.C08_hexdump_digits",
    "Fileid.Props.C08_hexdump_injective"
   ],
   "note": "Every byte sequence."
  },
  {
   "property": "C09",
   "status": "proved",
   "theorems": [
    "Fileid.Props.C09_int_to_hex",
    "Fileid.Props.C09_int_to_hex_injective"
   ],
   "note": "Every width and every value of that width."
  },
  {
   "property": "C10",
   "status": "partial",
   "theorems": [
    "Fileid.Props.C10_json_escape_reads_prefix",
    "Fileid.Props.C10_json_escape_printable",
    "Fileid.Props.C10_json_escape_lossless_partial",
    "Fileid.Props.C10_json_escape_not_lossless",
    "Fileid.Props.C10_json_escape_injective_partial"
   ],
   "note": "Safety for all byte strings; losslessness for NUL-free strings. False with NUL bytes, where output stops (C10_json_escape_not_lossless)."
  },
  {
   "property": "C11",
   "status": "proved",
   "theorems": [
    "Fileid.Props.C11_xml_escape_safe",
    "Fileid.Props.C11_xml_escape_references"
   ],
   "note": "Every byte string."
  },
  {
   "property": "C12",
   "status": "partial",
   "theorems": [
    "Fileid.Props.C12_xml_escape_reads_swapped",
    "Fileid.Props.C12_xml_escape_lossless_partial",
    "Fileid.Props.C12_xml_escape_not_lossless",
    "Fileid.Props.C12_xml_escape_injective"
   ],
   "note": "Lossless for strings without angle brackets. False otherwise: < and > are exchanged (C12_xml_escape_reads_swapped gives the exact behaviour for all strings)."
  },
  {
   "property": "C13",
   "status": "proved",
   "theorems": [
    "Fileid.Props.C13_ltrim",
    "Fileid.Props.C13_rtrim",
    "Fileid.Props.C13_trim",
    "Fileid.Props.C13_trim_all",
    "Fileid.Props.C13_trim_idempotent"
   ],
   "note": "Every string shorter than npos and every character set."
  },
  {
   "property": "C14",
   "status": "proved",
   "theorems": [
    "Fileid.Props.C14_erasenulls"
   ],
   "note": "Every byte string."
  },
  {
   "property": "C15",
   "status": "partial",
   "theorems": [
    "Fileid.Props.C15_iequals",
    "Fileid.Props.C15_iequals_equivalence",
    "Fileid.Props.C15_iequals_wide_partial",
    "Fileid.Props.C15_iequals_wide_wrong"
   ],
   "note": "Narrow strings: proved. Wide strings: proved for code units below 256, false beyond (C15_iequals_wide_wrong)."
  },
  {
   "property": "C16",
   "status": "proved",
   "theorems": [
    "Fileid.Props.C16_duration"
   ],
   "note": "Every tick count."
  },
  {
   "property": "C17",
   "status": "partial",
   "theorems": [
    "Fileid.Props.C17_timestamp_partial",
    "Fileid.Props.C17_timestamp_epoch",
    "Fileid.Props.C17_timestamp_wrong_before_1970",
    "Fileid.Props.C17_timestamp_depends_on_errno",
    "Fileid.Props.C17_timestamp_iff_partial"
   ],
   "note": "Proved from 1970-01-01 00:00:01 to the end of the 64-bit range while errno is not EOVERFLOW, and for the first second of 1601. False for the instants between (printed as 1601) and dependent on errno; C17_timestamp_iff_partial says exactly which instants are right."
  },
  {
   "property": "C18",
   "status": "partial",
   "theorems": [
    "Fileid.Props.C18_ushort_outcome_partial",
    "Fileid.Props.C18_ushort_unsafe",
    "Fileid.Props.C18_uint_outcome_partial",
    "Fileid.Props.C18_uint_unsafe"
   ],
   "note": "Complete outcome description. False of the code: the bound check is off by one and wraps (C18_ushort_unsafe, C18_uint_unsafe)."
  },
  {
   "property": "C19",
   "status": "partial",
   "theorems": [
    "Fileid.Props.C19_ushort_order",
    "Fileid.Props.C19_sshort_order",
    "Fileid.Props.C19_uint_reversed_partial",
    "Fileid.Props.C19_sint_reversed_partial",
    "Fileid.Props.C19_uint_order_wrong"
   ],
   "note": "Two-byte reads: proved. Four-byte reads decode in the opposite order (C19_uint_reversed_partial, C19_uint_order_wrong)."
  },
  {
   "property": "C20",
   "status": "partial",
   "theorems": [
    "Fileid.Props.C20_string_partial",
    "Fileid.Props.C20_string_unsafe"
   ],
   "note": "Proved when offset+length stays below 2^32; false on wrap-around (C20_string_unsafe)."
  },
  {
   "property": "C21",
   "status": "proved",
   "theorems": [
    "Fileid.Props.C21_ulonglong",
    "Fileid.Props.C21_ulong"
   ],
   "note": "Both widths of unsigned long."
  },
  {
   "property": "C22",
   "status": "proved",
   "theorems": [
    "Fileid.Props.C22_guid_equality",
    "Fileid.Props.C22_guid_equality_exact"
   ],
   "note": "Every pair of arrays of at least sixteen bytes."
  },
  {
   "property": "C23",
   "status": "proved",
   "theorems": [
    "Fileid.Props.C23_extract_bits",
    "Fileid.Props.C23_position_zero"
   ],
   "note": "Every byte, counts up to 30, positions 1..32; position 0 is undefined behaviour."
  },
  {
   "property": "C24",
   "status": "partial",
   "theorems": [
    "Fileid.Props.C24_format_lower_partial",
    "Fileid.Props.C24_usage_names_ignored"
   ],
   "note": "Lower-case names are recognised; the names as advertised (upper case) are not (C24_usage_names_ignored)."
  },
  {
   "property": "C25",
   "status": "proved",
   "theorems": [
    "Fileid.Props.C25_extractor_items",
    "Fileid.Props.C25_json_document_items",
    "Fileid.Props.C25_json_document",
    "Fileid.Props.C25_unescaped_name_breaks"
   ],
   "note": "Every NUL-free file name, every list of reportable items, read by an independent JSON reader. Items from detail extractors are covered by C25_json_document_items under the condition that their own text is a JSON object, which C25_extractor_items proves for the executable, Mach-O, JPEG, DWG, MP4 and RIFF extractors."
  },
  {
   "property": "C26",
   "status": "partial",
   "theorems": [
    "Fileid.Props.C26_extractor_items",
    "Fileid.Props.C26_xml_document_items_partial",
    "Fileid.Props.C26_xml_document_partial",
    "Fileid.Props.C26_control_character_breaks"
   ],
   "note": "Proved for file names without control characters other than tab, LF, CR; false otherwise (C26_control_character_breaks)."
  },
  {
   "property": "C27",
   "status": "partial",
   "theorems": [
    "Fileid.Props.C27_macho_fields",
    "Fileid.Props.C27_unknown_fields",
    "Fileid.Props.C27_zip_fields",
    "Fileid.Props.C27_compound_fields",
    "Fileid.Props.C27_text_lines",
    "Fileid.Props.C27_csv_lines",
    "Fileid.Props.C27_fields",
    "Fileid.Props.C27_table_rows_clean",
    "Fileid.Props.C27_csv_comma_breaks",
    "Fileid.Props.C27_archive_fields"
   ],
   "note": "Line structure and field recovery proved for separator-free fields (which all table rows have); false for fields with commas (C27_csv_comma_breaks). The columns of records with export functions of their own: C27_macho_fields, C27_unknown_fields, C27_zip_fields, C27_compound_fields."
  },
  {
   "property": "C28",
   "status": "partial",
   "theorems": [
    "Fileid.Props.C28_kind_partial",
    "Fileid.Props.C28_wraps"
   ],
   "note": "Proved for every file of at most 2^32-104 bytes with a complete DOS header. False close to 4 GiB (C28_wraps)."
  },
  {
   "property": "C29",
   "status": "partial",
   "theorems": [
    "Fileid.Props.C29_in_bounds_iff_partial",
    "Fileid.Props.C29_short_file_ub"
   ],
   "note": "Exact characterisation: inspection leaves the file iff it has fewer than 64 bytes. The whole run on a file MZ is undefined (C29_short_file_ub)."
  },
  {
   "property": "C30",
   "status": "partial",
   "theorems": [
    "Fileid.Props.C30_cpu_names",
    "Fileid.Props.C30_little_endian_partial",
    "Fileid.Props.C30_big_endian_misread",
    "Fileid.Props.C30_in_bounds_iff_partial",
    "Fileid.Props.C30_short_file_ub"
   ],
   "note": "Proved for little-endian headers in files of at least 28 bytes. False for big-endian headers (C30_big_endian_misread) and for shorter files, where bytes outside the file are read (exact: C30_in_bounds_iff_partial)."
  },
  {
   "property": "C31",
   "status": "proved",
   "theorems": [
    "Fileid.Props.C31_riff_kind",
    "Fileid.Props.C31_short_is_riff"
   ],
   "note": "Every buffer below 2^63 bytes."
  },
  {
   "property": "C32",
   "status": "partial",
   "theorems": [
    "Fileid.Props.C32_mp4_outcome_partial",
    "Fileid.Props.C32_short_file_throws"
   ],
   "note": "Complete outcome by buffer length; false below 16 bytes (C32_short_file_throws: the run ends with an uncaught exception)."
  },
  {
   "property": "C33",
   "status": "proved",
   "theorems": [
    "Fileid.Props.C33_dwg_release"
   ],
   "note": "Every buffer."
  },
  {
   "property": "C34",
   "status": "proved",
   "theorems": [
    "Fileid.Props.C34_installer_kind"
   ],
   "note": "Every stream content."
  },
  {
   "property": "C35",
   "status": "partial",
   "theorems": [
    "Fileid.Props.C35_scan_partial",
    "Fileid.Props.C35_scan_taken",
    "Fileid.Props.C35_values_partial",
    "Fileid.Props.C35_empty_value_swallows"
   ],
   "note": "Proved for every text whose declared values are non-empty, whatever is done with them. False when a value is empty (C35_empty_value_swallows); what is then taken is characterised exactly (C35_scan_taken)."
  },
  {
   "property": "C36",
   "status": "partial",
   "theorems": [
    "Fileid.Props.C36_distinct_partial",
    "Fileid.Props.C36_marker_pair_repeats"
   ],
   "note": "Proved for every archive a fresh process inspects, apart from two pairs of marker entries. False for those pairs (C36_marker_pair_repeats)."
  },
  {
   "property": "C37",
   "status": "partial",
   "theorems": [
    "Fileid.Props.C37_history_effect_partial",
    "Fileid.Props.C37_independent_partial",
    "Fileid.Props.C37_second_archive_lost"
   ],
   "note": "The exact effect of the history is proved for every archive; independence holds when no declared extension was seen before. False otherwise (C37_second_archive_lost)."
  },
  {
   "property": "C38",
   "status": "proved",
   "theorems": [
    "Fileid.Props.C38_header_round_trip",
    "Fileid.Props.C38_valid_header",
    "Fileid.Props.C38_layout"
   ],
   "note": "Every header whose fields fit their stored widths; the layout theorem ties the fields to MS-CFB offsets."
  },
  {
   "property": "C39",
   "status": "proved",
   "theorems": [
    "Fileid.Props.C39_follow",
    "Fileid.Props.C39_only_chains"
   ],
   "note": "Every table of at most 0xfffffffc entries (the numbers above are reserved); both directions."
  },
  {
   "property": "C40",
   "status": "partial",
   "theorems": [
    "Fileid.Props.C40_false",
    "Fileid.Props.C40_terminates_iff_partial",
    "Fileid.Props.C40_budget_partial"
   ],
   "note": "False of the code: a cyclic table is followed for ever (C40_false). Exact characterisation of termination proved."
  },
  {
   "property": "C41",
   "status": "proved",
   "theorems": [
    "Fileid.Props.C41_table_round_trip",
    "Fileid.Props.C41_layout",
    "Fileid.Props.C41_load"
   ],
   "note": "Every table of 32-bit slots, with the byte layout."
  },
  {
   "property": "C42",
   "status": "proved",
   "theorems": [
    "Fileid.Props.C42_children",
    "Fileid.Props.C42_entries"
   ],
   "note": "Every directory below 2^32-1 entries whose sibling links form a finite tree."
  },
  {
   "property": "C43",
   "status": "proved",
   "theorems": [
    "Fileid.Props.C43_find_child",
    "Fileid.Props.C43_path",
    "Fileid.Props.C43_exists_iff_listed"
   ],
   "note": "Every ordered tree of valid entries not containing entry 0, whole paths, agreement with the listing."
  },
  {
   "property": "C44",
   "status": "partial",
   "theorems": [
    "Fileid.Props.C44_read_large_partial",
    "Fileid.Props.C44_cut_repeats_wrong",
    "Fileid.Props.C44_cut_unwritten_wrong",
    "Fileid.Props.C44_false"
   ],
   "note": "Proved for large streams with all sectors present and positions up to the end. False behind the end (C44_false: buffer overflow). False in a file that was cut off: all bytes are reported as read, where sectors are missing the last one that is there is repeated (C44_cut_repeats_wrong), or bytes nobody wrote are given out (C44_cut_unwritten_wrong)."
  },
  {
   "property": "C45",
   "status": "partial",
   "theorems": [
    "Fileid.Props.C45_windows_partial",
    "Fileid.Props.C45_linux_false",
    "Fileid.Props.C45_windows_false"
   ],
   "note": "Windows: proved for names without a unit whose low byte is zero, false for such a unit (C45_windows_false). Linux: false for every name of two or more units (C45_linux_false)."
  },
  {
   "property": "C46",
   "status": "partial",
   "theorems": [
    "Fileid.Props.C46_made_iff",
    "Fileid.Props.C46_kinds_partial",
    "Fileid.Props.C46_generic_partial",
    "Fileid.Props.C46_table",
    "Fileid.Props.C46_made_partial",
    "Fileid.Props.C46_linux_false",
    "Fileid.Props.C46_subtypes_lost",
    "Fileid.Props.C46_no_project_false",
    "Fileid.Props.C46_empty_workbook_false",
    "Fileid.Props.C46_case_false",
    "Fileid.Props.C46_empty_workbook_file_false",
    "Fileid.Props.C46_no_project_file_false"
   ],
   "note": "Proved for every compound file whose results are made and whose paths do not become markers by losing high bytes; results are made exactly when every object can be looked at (C46_made_iff). False for an empty workbook stream and for a VBA storage without a project (undefined behaviour), for paths with other high bytes (C46_case_false), and on Linux for every file with names of two units or more (C46_linux_false). Subtypes of the table are never reported (C46_subtypes_lost)."
  },
  {
   "property": "C47",
   "status": "partial",
   "theorems": [
    "Fileid.Props.C47_partial",
    "Fileid.Props.C47_raw_false"
   ],
   "note": "Proved for every container of compressed chunks below 4 MB. False for raw chunks (C47_raw_false, every such container of one raw chunk)."
  },
  {
   "property": "C48",
   "status": "partial",
   "theorems": [
    "Fileid.Props.C48_partial",
    "Fileid.Props.C48_trailing_false",
    "Fileid.Props.C48_empty_false",
    "Fileid.Props.C48_wrap_false"
   ],
   "note": "Writes, shifts and termination proved for every input below 4 MB. Reads leave the input for an empty stream, for one trailing byte and for raw chunks; at 4 MB the output buffer is written out of bounds."
  },
  {
   "property": "C49",
   "status": "partial",
   "theorems": [
    "Fileid.Props.C49_listed_partial",
    "Fileid.Props.C49_complete_partial",
    "Fileid.Props.C49_final_empty_wrong",
    "Fileid.Props.C49_final_wrong",
    "Fileid.Props.C49_whole_partial"
   ],
   "note": "Proved for every stream followed by one to four further bytes: listed records are records of the stream in order, only interpreted types can be missing (C49_listed_partial); complete with continuations when no record is interpreted (C49_complete_partial), and for BIFF8 workbooks whose records all have the data their kind needs (cells, formulas, names, strings, sheets and so on), with sheets declared before the second BOF record (C49_whole_partial). False of the last record of a stream (C49_final_wrong, C49_final_empty_wrong)."
  },
  {
   "property": "C50",
   "status": "proved",
   "theorems": [
    "Fileid.Props.C50_name",
    "Fileid.Props.C50_standard",
    "Fileid.Props.C50_injective",
    "Fileid.Props.C50_zero"
   ],
   "note": "Every 16-bit column number; the name is the standard bijective base-26 one and determines the column."
  },
  {
   "property": "C51",
   "status": "partial",
   "theorems": [
    "Fileid.Props.C51_names_one_cell",
    "Fileid.Props.C51_formula_partial",
    "Fileid.Props.C51_ref_partial",
    "Fileid.Props.C51_ref3d_partial",
    "Fileid.Props.C51_area3d_partial",
    "Fileid.Props.C51_exp_partial",
    "Fileid.Props.C51_area_false",
    "Fileid.Props.C51_tbl_false",
    "Fileid.Props.C51_rk_false",
    "Fileid.Props.C51_mulblank_false",
    "Fileid.Props.C51_blank_false",
    "Fileid.Props.C51_boolerr_false",
    "Fileid.Props.C51_labelsst_false"
   ],
   "note": "Proved for formula cells and for reference tokens (same sheet, other sheet, areas in other sheets, shared formulas). False for areas in the same sheet, table tokens, RK and multi-blank cells; undefined behaviour for blank, boolean and string cells."
  },
  {
   "property": "C52",
   "status": "partial",
   "theorems": [
    "Fileid.Props.C52_elf_false",
    "Fileid.Props.C52_attr_false",
    "Fileid.Props.C52_choose_false",
    "Fileid.Props.C52_false",
    "Fileid.Props.C52_partial"
   ],
   "note": "False of the code (C52_false, C52_elf_false, C52_attr_false, C52_choose_false). Proved for every formula without the tokens those concern."
  },
  {
   "property": "C53",
   "status": "partial",
   "theorems": [
    "Fileid.Props.C53_partial",
    "Fileid.Props.C53_negative_false",
    "Fileid.Props.C53_hundredths_false",
    "Fileid.Props.C53_float_false"
   ],
   "note": "Proved for non-negative integers that are not in hundredths. False for negative integers, hundredths and every positive normal floating point number."
  },
  {
   "property": "C54",
   "status": "partial",
   "theorems": [
    "Fileid.Props.C54_identification_partial",
    "Fileid.Props.C54_names_distinct_partial",
    "Fileid.Props.C54_compatibility_wrong"
   ],
   "note": "Proved for every identifier except that of compatibility objects, which is not recognised (C54_compatibility_wrong)."
  },
  {
   "property": "C55",
   "status": "partial",
   "theorems": [
    "Fileid.Props.C55_walk_ends_partial",
    "Fileid.Props.C55_short_extension_wrong",
    "Fileid.Props.C55_framed_partial",
    "Fileid.Props.C55_broken_wrong",
    "Fileid.Props.C55_ends_partial",
    "Fileid.Props.C55_stuck_wrong"
   ],
   "note": "Settled for every file, on Linux and Windows: the walk ends exactly unless the header of the file leads to a header extension in which it comes to a place that is no object (C55_ends_partial); of all those files the property is false, none is ever reported (C55_stuck_wrong). Whether an object before that place fails first is not told apart there; C55_short_extension_wrong gives a family for which the loop is shown not to end. Simpler cases: files without header extensions (C55_walk_ends_partial), Windows files whose header and extensions are made of objects (C55_framed_partial) or not (C55_broken_wrong). Nothing is missing except that files of 4 GB and more are not covered."
  },
  {
   "property": "C56",
   "status": "proved",
   "theorems": [
    "Fileid.Props.C56_word_version",
    "Fileid.Props.C56_version_unique",
    "Fileid.Props.C56_word_names"
   ],
   "note": "Every stream, with uniqueness of the documented version."
  },
  {
   "property": "C57",
   "status": "partial",
   "theorems": [
    "Fileid.Props.C57_ppt_windows_partial",
    "Fileid.Props.C57_ppt_in_bounds",
    "Fileid.Props.C57_ppt_linux_wrong",
    "Fileid.Props.C57_pub_partial",
    "Fileid.Props.C57_pub_out_of_bounds_iff",
    "Fileid.Props.C57_visio_partial",
    "Fileid.Props.C57_short_streams_ub",
    "Fileid.Props.C57_publisher_names",
    "Fileid.Props.C57_visio_names"
   ],
   "note": "PowerPoint: proved for 4-byte unsigned long, false for 8-byte (C57_ppt_linux_wrong); in bounds on both. Publisher and Visio: exact outcome; short streams are read out of bounds (C57_short_streams_ub)."
  },
  {
   "property": "C58",
   "status": "partial",
   "theorems": [
    "Fileid.Props.C58_partial",
    "Fileid.Props.C58_i4_reversed",
    "Fileid.Props.C58_i4_false",
    "Fileid.Props.C58_i2_false",
    "Fileid.Props.C58_ui4_false",
    "Fileid.Props.C58_wide_linux",
    "Fileid.Props.C58_wide_false",
    "Fileid.Props.C58_empty_wide_unsafe",
    "Fileid.Props.C58_offset_unsafe"
   ],
   "note": "Proved for every stream of 2-byte non-negative integers, reals, truth values, times, code page strings and (Windows) ASCII wide strings. False for 4-byte integers, negative integers, wide strings on Linux and types not read; reads outside the stream for wide strings of length 0 and offsets behind the end."
  },
  {
   "property": "C59",
   "status": "partial",
   "theorems": [
    "Fileid.Props.C59_characteristics_partial",
    "Fileid.Props.C59_wraps"
   ],
   "note": "Proved for every file of at most 2^32-104 bytes and every characteristics value; false for larger files (C59_wraps)."
  },
  {
   "property": "C60",
   "status": "partial",
   "theorems": [
    "Fileid.Props.C60_machine_names",
    "Fileid.Props.C60_machine_partial",
    "Fileid.Props.C60_subsystem_partial",
    "Fileid.Props.C60_subsystem_wrong"
   ],
   "note": "Machine names: proved for every value and header position. Subsystem: proved below 10 with zero DLL characteristics, false otherwise (C60_subsystem_wrong)."
  },
  {
   "property": "C61",
   "status": "partial",
   "theorems": [
    "Fileid.Props.C61_versions_partial",
    "Fileid.Props.C61_header_beyond_2047"
   ],
   "note": "Proved when the optional header ends within the first 2047 bytes; false beyond (C61_header_beyond_2047)."
  },
  {
   "property": "C62",
   "status": "partial",
   "theorems": [
    "Fileid.Props.C62_exe_iff_partial",
    "Fileid.Props.C62_signature_ignored"
   ],
   "note": "Proved exactly which files with a DOS header are reported as exe (C62_exe_iff_partial, up to 2^32 - 104 bytes). The property is false: the PE signature is never looked at (C62_signature_ignored)."
  },
  {
   "property": "C63",
   "status": "partial",
   "theorems": [
    "Fileid.Props.C63_tolerance_partial",
    "Fileid.Props.C63_exact_builds_partial",
    "Fileid.Props.C63_builds_misnamed"
   ],
   "note": "Every number: the name is that of a release within ten. False for three exact build numbers (C63_builds_misnamed)."
  },
  {
   "property": "C64",
   "status": "partial",
   "theorems": [
    "Fileid.Props.C64_archive_report_partial",
    "Fileid.Props.C64_taken_report",
    "Fileid.Props.C64_empty_value_wrong",
    "Fileid.Props.C64_vba_without_binary",
    "Fileid.Props.C64_vba_last_binary"
   ],
   "note": "Proved for every archive of a fresh process whose content-type list has no empty value. False behind an empty value (C64_empty_value_wrong). C64_taken_report is the exact report for every archive."
  },
  {
   "property": "C65",
   "status": "partial",
   "theorems": [
    "Fileid.Props.C65_office_types",
    "Fileid.Props.C65_odf_types_partial",
    "Fileid.Props.C65_odf_presentation_wrong",
    "Fileid.Props.C65_odf_reported"
   ],
   "note": "Office types: proved. OpenDocument: proved apart from presentations, which get opd instead of odp (C65_odf_presentation_wrong)."
  },
  {
   "property": "C66",
   "status": "partial",
   "theorems": [
    "Fileid.Props.C66_json_archive_item_partial",
    "Fileid.Props.C66_json_entry_name_breaks",
    "Fileid.Props.C66_xml_archive_item_partial",
    "Fileid.Props.C66_xml_entry_name_breaks",
    "Fileid.Props.C66_archive_documents_partial",
    "Fileid.Props.C66_large_entry_negative"
   ],
   "note": "Proved for entry names and comments of printable ASCII without quotes, backslashes and markup and for compressed sizes below 2 GiB. False for other names, which are written unescaped (C66_json_entry_name_breaks, C66_xml_entry_name_breaks), and for larger entries (C66_large_entry_negative)."
  },
  {
   "property": "C67",
   "status": "partial",
   "theorems": [
    "Fileid.Props.C67_read_small_partial"
   ],
   "note": "Proved for positions up to the end of the stream; behind the end see C44_false, whose witness is a small stream."
  },
  {
   "property": "C68",
   "status": "proved",
   "theorems": [
    "Fileid.Props.C68_entry",
    "Fileid.Props.C68_directory",
    "Fileid.Props.C68_open"
   ],
   "note": "Every image that satisfies the MS-CFB conditions written down in the specification, FAT of at most 0xfffffffc entries."
  },
  {
   "property": "C69",
   "status": "partial",
   "theorems": [
    "Fileid.Props.C69_fat_cut_false",
    "Fileid.Props.C69_minifat_cut_false",
    "Fileid.Props.C69_directory_cut_false",
    "Fileid.Props.C69_cut_false",
    "Fileid.Props.C69_uncut_partial",
    "Fileid.Props.C69_short_file_false",
    "Fileid.Props.C69_refused_partial",
    "Fileid.Props.C69_no_directory_false"
   ],
   "note": "Files of 512 bytes and more that are no compound file or have an unacceptable header: proved. False for shorter files (C69_short_file_false, every such file) for a missing directory (C69_no_directory_false), and for every compound file cut off before the end of its FAT, mini FAT or directory (C69_cut_false; C69_fat_cut_false, C69_minifat_cut_false and C69_directory_cut_false need no whole file to start with). A file cut off behind them is opened and shows the same storages and streams (C69_uncut_partial). The theorems on cut files are for files with at most 109 FAT sectors, except C69_fat_cut_false and the two like it."
  },
  {
   "property": "C70",
   "status": "partial",
   "theorems": [
    "Fileid.Props.C70_false",
    "Fileid.Props.C70_listing_partial"
   ],
   "note": "False of the code: cyclic links (C70_false). Exact characterisation for listing proved."
  },
  {
   "property": "C71",
   "status": "partial",
   "theorems": [
    "Fileid.Props.C71_false",
    "Fileid.Props.C71_upper_case_partial"
   ],
   "note": "False of the code for names with lower-case letters (C71_false); proved for names without."
  },
  {
   "property": "C72",
   "status": "partial",
   "theorems": [
    "Fileid.Props.C72_partial",
    "Fileid.Props.C72_record_partial",
    "Fileid.Props.C72_memErr_false",
    "Fileid.Props.C72_areaErr3d_false",
    "Fileid.Props.C72_command_false",
    "Fileid.Props.C72_wide_string_false",
    "Fileid.Props.C72_wide_string_windows_false",
    "Fileid.Props.C72_extra_data_false"
   ],
   "note": "Proved for every sequence of the token kinds listed in the specification, up to the printed record. False for memory errors, 3-D area errors, command calls, strings outside Latin-1 and formulas with extra data."
  },
  {
   "property": "C73",
   "status": "proved",
   "theorems": [
    "Fileid.Props.C73_value"
   ],
   "note": "Every accepted formula record; the escaping restrictions are those of C10 and C12."
  },
  {
   "property": "C74",
   "status": "partial",
   "theorems": [
    "Fileid.Props.C74_walk_partial",
    "Fileid.Props.C74_false"
   ],
   "note": "Proved for every file whose directory is a finite tree. False for a storage that contains itself (C74_false)."
  },
  {
   "property": "C75",
   "status": "partial",
   "theorems": [
    "Fileid.Props.C75_paths_partial",
    "Fileid.Props.C75_every_object",
    "Fileid.Props.C75_wordperfect_false"
   ],
   "note": "Proved for every file one of whose results can carry paths. False for WordPerfect documents (C75_wordperfect_false) and files whose only results are VBA projects."
  },
  {
   "property": "C76",
   "status": "proved",
   "theorems": [
    "Fileid.Props.C76_stream_content",
    "Fileid.Props.C76_no_stream"
   ],
   "note": "Every compound file in the sense of the specification, both platforms, every stream of its directory tree."
  },
  {
   "property": "C77",
   "status": "partial",
   "theorems": [
    "Fileid.Props.C77_windows_iff",
    "Fileid.Props.C77_linux_false",
    "Fileid.Props.C77_text_partial",
    "Fileid.Props.C77_windows_partial",
    "Fileid.Props.C77_wordperfect_false",
    "Fileid.Props.C77_json_paths"
   ],
   "note": "Text and CSV: proved for all results. JSON and XML: proved on Windows, where a report is made exactly when there is no WordPerfect result and every workbook can be printed (C77_windows_iff); false on Linux (C77_linux_false: every file whose names have two units or more) and for WordPerfect documents (C77_wordperfect_false)."
  },
  {
   "property": "C78",
   "status": "proved",
   "theorems": [
    "Fileid.Props.C78_dump"
   ],
   "note": "Every compound file in the sense of the specification, every stream of its directory tree."
  },
  {
   "property": "C79",
   "status": "proved",
   "theorems": [
    "Fileid.Props.C79_list"
   ],
   "note": "Every listing that is made; it ends when the directory is a finite tree (C74)."
  },
  {
   "property": "C80",
   "status": "partial",
   "theorems": [
    "Fileid.Props.C80_project_name_partial",
    "Fileid.Props.C80_compat_false"
   ],
   "note": "Proved for every directory without a compatibility record. With one, every directory below 131119 bytes ends in an exception (C80_compat_false)."
  },
  {
   "property": "C81",
   "status": "partial",
   "theorems": [
    "Fileid.Props.C81_version_false"
   ],
   "note": "False of the code for every project: C81_version_false gives the numbers that are reported instead, C82_second_reference_false a project where both are wrong."
  },
  {
   "property": "C82",
   "status": "partial",
   "theorems": [
    "Fileid.Props.C82_no_references_partial",
    "Fileid.Props.C82_references_false",
    "Fileid.Props.C82_second_reference_false"
   ],
   "note": "Proved for projects without references. False otherwise: only the first reference is reported (C82_references_false)."
  },
  {
   "property": "C83",
   "status": "partial",
   "theorems": [
    "Fileid.Props.C83_modules_partial",
    "Fileid.Props.C83_references_wrong",
    "Fileid.Props.C83_project_partial",
    "Fileid.Props.C83_missing_stream_false",
    "Fileid.Props.C83_linux_false"
   ],
   "note": "Proved on Windows for projects without references and for projects whose references do not put the search for the modules out of step, up to the whole file (C83_project_partial). The program misreads the type of a reference and then looks for the modules two bytes at a time: for references of odd length all modules are lost (C83_references_wrong). False on Linux (C83_linux_false); undefined behaviour when the stream of a module is missing (C83_missing_stream_false)."
  },
  {
   "property": "C84",
   "status": "proved",
   "theorems": [
    "Fileid.Props.C84_directory_ends"
   ],
   "note": "Every buffer below 4 GB less 64 bytes; decompression makes no larger one of streams below 4 MB."
  },
  {
   "property": "C85",
   "status": "partial",
   "theorems": [
    "Fileid.Props.C85_large_header_wrong",
    "Fileid.Props.C85_kind_no_codecs_partial",
    "Fileid.Props.C85_kind_partial",
    "Fileid.Props.C85_decided_partial",
    "Fileid.Props.C85_single_video_wrong",
    "Fileid.Props.C85_several_audio_wrong"
   ],
   "note": "Proved on Windows for files whose header lies in the first 65536 bytes and with at most one codec list, unless it has a single video codec or several codecs with audio and no video: these are reported as asf (C85_single_video_wrong, C85_several_audio_wrong, for every such file). Every file with a larger header is reported as asf whatever its codecs (C85_large_header_wrong; what decides for files with any number of codec lists: C85_decided_partial): the extractor reads the file again only if it was given 512 bytes, but it is given 65536."
  },
  {
   "property": "C86",
   "status": "partial",
   "theorems": [
    "Fileid.Props.C86_shown_as_understood_partial",
    "Fileid.Props.C86_shown_partial",
    "Fileid.Props.C86_content_description_wrong",
    "Fileid.Props.C86_dword_wrong",
    "Fileid.Props.C86_large_header_wrong",
    "Fileid.Props.C86_empty_attributes_wrong",
    "Fileid.Props.C86_empty_codecs_wrong",
    "Fileid.Props.C86_quoted_title_wrong"
   ],
   "note": "Proved on Windows for every valid file with a header of at most 65536 bytes and of objects that the program understands rightly, and for all valid files up to the way the program reads them. False for content descriptions (shown under another name), DWORD attributes (bytes reversed), empty lists (malformed JSON) and texts with quotation marks or ampersands (written unescaped), and of every file with a larger header, of which nothing is shown (C86_large_header_wrong)."
  },
  {
   "property": "C87",
   "status": "partial",
   "theorems": [
    "Fileid.Props.C87_linux_wrong"
   ],
   "note": "False: on Linux every file whose first object gives the file properties ends in an exception (C87_linux_wrong). Windows: C85, C86."
  },
  {
   "property": "C88",
   "status": "partial",
   "theorems": [
    "Fileid.Props.C88_sheets_partial",
    "Fileid.Props.C88_complete_partial",
    "Fileid.Props.C88_wide_name_wrong",
    "Fileid.Props.C88_late_declaration_wrong"
   ],
   "note": "Proved for BIFF8 workbooks whose walk ends without error; it does end, and every record is listed, if all records have the data their kind needs (C88_complete_partial). Both with sheet names of one byte per character and, on Windows, of two (shown in UTF-8). False on Linux for wide names (C88_wide_name_wrong) and for declarations behind the beginning of a sheet (C88_late_declaration_wrong)."
  },
  {
   "property": "C90",
   "status": "partial",
   "theorems": [
    "Fileid.Props.C90_rest_ignored_partial",
    "Fileid.Props.C90_shown_partial",
    "Fileid.Props.C90_api_shown_partial",
    "Fileid.Props.C90_api_hash_wrong",
    "Fileid.Props.C90_api_linux_wrong",
    "Fileid.Props.C90_short_wrong"
   ],
   "note": "Proved for obfuscation, RC4 and CryptoAPI and streams below 2 GB (less 128 KB): the records behind the FilePass record are ignored (C90_rest_ignored_partial), and what is shown is the exact JSON and XML of the method (C90_shown_partial for obfuscation and RC4). CryptoAPI, Windows: shown apart from the verifier hash, which is read from the start of the record, and the second reserved field, which shows the first (C90_api_shown_partial, C90_api_hash_wrong). CryptoAPI, Linux: the report always ends in an exception (C90_api_linux_wrong). False of a truncated FilePass record (C90_short_wrong). Missing: larger streams, in which the place behind the FilePass record wraps."
  },
  {
   "property": "C89",
   "status": "partial",
   "theorems": [
    "Fileid.Props.C89_json_partial",
    "Fileid.Props.C89_xml_partial",
    "Fileid.Props.C89_xml_false",
    "Fileid.Props.C89_nan_false"
   ],
   "note": "Proved end to end for every result (compound documents, workbooks, VBA projects): JSON when real numbers are written as numbers and texts written without escaping need none, XML when no name or text has a control character. False in XML for every path with a control character, as that of the usual property streams (C89_xml_false); false in JSON for the real number NaN (C89_nan_false). Result of the WordPerfect kind: printing it is undefined behaviour (dangling object)."
  },
  {
   "property": "C91",
   "status": "partial",
   "theorems": [
    "Fileid.Props.C91_json_partial",
    "Fileid.Props.C91_xml_partial",
    "Fileid.Props.C91_json_false",
    "Fileid.Props.C91_xml_false",
    "Fileid.Props.C91_link_path"
   ],
   "note": "Proved when the texts that are written without escaping (user name, function group name, code name, add-in name, link paths and sheet names of links, error text) need none. False otherwise (C91_json_false, C91_xml_false), and in particular of every workbook with a link to another workbook: the path is read from the byte before it, which is a control character (C91_link_path)."
  },
  {
   "property": "C92",
   "status": "partial",
   "theorems": [
    "Fileid.Props.C92_analyzed",
    "Fileid.Props.C92_json_partial",
    "Fileid.Props.C92_xml_partial",
    "Fileid.Props.C92_json_false",
    "Fileid.Props.C92_source_false"
   ],
   "note": "JSON: proved when the names of the references need no escaping; false otherwise (C92_json_false). XML: proved when also the source texts are ASCII and do not contain the end of a CDATA section; otherwise the author of the macro can put elements of their own into the report (C92_source_false). C92_analyzed links the theorems, stated about reading the directory, with the analysis of a file."
  },
  {
   "property": "C93",
   "status": "partial",
   "theorems": [
    "Fileid.Props.C93_identified",
    "Fileid.Props.C93_json_partial",
    "Fileid.Props.C93_xml_partial",
    "Fileid.Props.C93_compound",
    "Fileid.Props.C93_asf_partial"
   ],
   "note": "C93_identified is complete (files below 4 GiB). The documents are proved well formed for every file whose texts need no escaping where the code does not escape; compound files and ASF files are composed end to end (C93_compound, C93_asf_partial). What ziplib makes of an archive is a parameter."
  },
  {
   "property": "C94",
   "status": "partial",
   "theorems": [
    "Fileid.Props.C94_header_false",
    "Fileid.Props.C94_reported_partial"
   ],
   "note": "Text and CSV: proved. JSON and XML: false for every file with the signature (C94_header_false): the header was a local object that is gone when the report is printed."
  },
  {
   "property": "C95",
   "status": "partial",
   "theorems": [
    "Fileid.Props.C95_macros_false",
    "Fileid.Props.C95_declared_partial"
   ],
   "note": "False for every package that declares a VBA project and has a part whose name ends in bin (C95_macros_false): the compound file is never opened, and the version is read from memory that was never written. Proved: the project is reported, without details, when there is no such part."
  },
  {
   "property": "C96",
   "status": "partial",
   "theorems": [
    "Fileid.Props.C96_shown_partial",
    "Fileid.Props.C96_highest_wrong",
    "Fileid.Props.C96_wide_wrong",
    "Fileid.Props.C96_formula_wrong",
    "Fileid.Props.C96_rich_wrong",
    "Fileid.Props.C96_continued_wrong",
    "Fileid.Props.C96_link_wrong",
    "Fileid.Props.C96_shared_wrong",
    "Fileid.Props.C96_runs_wrong",
    "Fileid.Props.C96_other_shown_partial",
    "Fileid.Props.C96_self",
    "Fileid.Props.C96_protect_wrong",
    "Fileid.Props.C96_row_wrong",
    "Fileid.Props.C96_area_wrong",
    "Fileid.Props.C96_blanks_wrong",
    "Fileid.Props.C96_number_wrong",
    "Fileid.Props.C96_icon_wrong",
    "Fileid.Props.C96_formula_flags_wrong"
   ],
   "note": "Proved for BOF, CodePage, Country, WriteAccess, CodeName, String, FnGroupName, BuiltInFnGroupCount, BoundSheet8, SST and Lbl records with texts of one byte per character (shared strings and, on Windows, names of sheets also with two), and for SupBook records of the workbook itself. WinProtect, Row, AreaFormat, MulBlank and RK records: what is shown is given exactly for every record (C96_other_shown_partial) and proved to be wrong (bytes swapped, fields of other meaning, the cell to the left, hundredths cut off). False also for: the highest version that edited the workbook (only its lowest bit is shown), user and code names of two bytes per character (the JSON cannot be read), the formula of a defined name (not shown), shared strings with formatting, shared strings that go on in a Continue record, the icon flag of external names (exact: C96_icon_wrong) and the second row and column shown for a formula (exact: C96_formula_flags_wrong): each proved as C96_..._wrong. Links to other workbooks are shown with a wrong path and without their sheets (C96_link_wrong); of runs of formats and shared formulas only the length is shown (C96_runs_wrong, C96_shared_wrong)."
  },
  {
   "property": "C97",
   "status": "partial",
   "theorems": [
    "Fileid.Props.C97_workbook",
    "Fileid.Props.C97_record_shown",
    "Fileid.Props.C97_classes",
    "Fileid.Props.C97_properties",
    "Fileid.Props.C97_executables",
    "Fileid.Props.C97_characteristics_wrong",
    "Fileid.Props.C97_brand_wrong",
    "Fileid.Props.C97_brands_partial",
    "Fileid.Props.C97_asf"
   ],
   "note": "Proved for all tables except two: the characteristics of executables (bits 6 and 10 have the same name, C97_characteristics_wrong) and the brands iso3 and iso4 (C97_brand_wrong; the other brands: C97_brands_partial)."
  },
  {
   "property": "C98",
   "status": "proved",
   "theorems": [
    "Fileid.Props.C98_as_described",
    "Fileid.Props.C98_recognised",
    "Fileid.Props.C98_usable"
   ],
   "note": "Proved for every file below 4 GiB and whatever the extractors do. The list is transcribed from data.xml (tools/gen_described.py), the model has the table of magic.h."
  },
  {
   "property": "C99",
   "status": "proved",
   "theorems": [
    "Fileid.Props.C99_records",
    "Fileid.Props.C99_functions",
    "Fileid.Props.C99_commands"
   ],
   "note": "Proved for every number against the tables of Spec/Functions.lean. These tables were taken by a script from the source of the program and looked over, since the published format was not at hand: the theorem fixes the tables of the model row by row, but is no independent evidence that the names are those of the format."
  },
  {
   "property": "C100",
   "status": "partial",
   "theorems": [
    "Fileid.Props.C100_properties_shown",
    "Fileid.Props.C100_documents_partial"
   ],
   "note": "Proved on Windows for every directory tree whose paths do not become other paths by losing high bytes. Missing: workbooks (C83 and C88 give what is shown of them), macros (C89), WordPerfect documents, which cannot be reported (C77_wordperfect_false), and the subtypes of data.xml, which are never looked for (C46_subtypes_lost). On Linux nothing is reported of such files (C77_linux_false). The document types are transcribed from data.xml."
  },
  {
   "property": "C101",
   "status": "partial",
   "theorems": [
    "Fileid.Props.C101_kinds",
    "Fileid.Props.C101_visibilities",
    "Fileid.Props.C101_json_partial",
    "Fileid.Props.C101_xml_partial"
   ],
   "note": "Proved for every workbook as described in Workbook.Valid whose records all have an entry (Spec/Book.lean: Entry, EntryX): those whose content is shown in full, formulas with their cell, value and text (defined names are those the workbook defines), those of which the program takes something (C96, with the mistakes given there), and those of which only kind and length are shown. Missing: workbooks with cells that hold texts, blanks, booleans or errors (printing those is undefined, C96), formulas with external names (C72 gives their texts), links to other workbooks, continued records and encrypted streams; names of sheets with a NUL (C10) or, in XML, with angle brackets (C12)."
  },
  {
   "property": "C102",
   "status": "partial",
   "theorems": [
    "Fileid.Props.C102_json_partial",
    "Fileid.Props.C102_xml_partial"
   ],
   "note": "Proved for JSON and XML on Windows. When all objects that count are macros the code tells neither paths nor properties (`carriers`: only results that are not macros can carry them). Missing: plain text, WordPerfect documents (C77_wordperfect_false), in XML texts with characters that may not stand there (C89_xml_false), workbooks with records that have no entry (C101), macros whose references need escaping (C92), real numbers that are not numbers (C89_nan_false). On Linux nothing is reported of such files (C77_linux_false)."
  },
  {
   "property": "C103",
   "status": "partial",
   "theorems": [
    "Fileid.Props.C103_history_partial",
    "Fileid.Props.C103_read_behind_end_wrong"
   ],
   "note": "Proved for every history of sensible calls whose steps are defined. False, or undefined: a read that begins behind the end of the stream (C103_read_behind_end_wrong), a stream that crosses the threshold of 4096 bytes (C104), two objects for one stream (C105). Missing: tables of more than 0xfffffffc sectors; that the calls return at all when the disk is full is not modelled."
  },
  {
   "property": "C104",
   "status": "partial",
   "theorems": [
    "Fileid.Props.C104_wrong",
    "Fileid.Props.C104_setSize",
    "Fileid.Props.C104_crossing"
   ],
   "note": "False (C104_wrong): a stream with bytes that grows to the threshold of 4096 bytes, or shrinks below it and keeps bytes, makes the program free an array with the wrong operator. C104_setSize and C104_crossing give the exact condition."
  },
  {
   "property": "C105",
   "status": "partial",
   "theorems": [
    "Fileid.Props.C105_two_objects_wrong",
    "Fileid.Props.C105_open_partial"
   ],
   "note": "Proved for streams that are not open. False for two objects of one stream (C105_two_objects_wrong): each keeps its own list of sectors."
  },
  {
   "property": "C106",
   "status": "partial",
   "theorems": [
    "Fileid.Props.C106_requests_partial",
    "Fileid.Props.C106_new_storage_partial",
    "Fileid.Props.C106_create"
   ],
   "note": "Proved for every history of sensible requests whose steps are defined, from any storage that matches the map; a new storage does. Missing: what is missing in C103 and C105; directories of 0xffffffff entries."
  },
  {
   "property": "C107",
   "status": "partial",
   "theorems": [
    "Fileid.Props.C107_below_stream_wrong",
    "Fileid.Props.C107_listed_partial"
   ],
   "note": "False: a stream can be created below a stream, where no listing shows it (C107_below_stream_wrong). Proved: whatever is there lies in a storage that lists it, or in a stream."
  },
  {
   "property": "C108",
   "status": "partial",
   "theorems": [
    "Fileid.Props.C108_dealt",
    "Fileid.Props.C108_sheets_partial",
    "Fileid.Props.C108_described_wrong",
    "Fileid.Props.C108_single",
    "Fileid.Props.C108_order_wrong",
    "Fileid.Props.C108_embedded_wrong",
    "Fileid.Props.C108_report_wrong",
    "Fileid.Props.C108_sheets_report_wrong"
   ],
   "note": "False in several ways, each proved: kind, visibility and place of BIFF5 sheets are never shown (C108_described_wrong); sheets not stored in the order of their declarations are shown with records of others (C108_order_wrong); an embedded chart is taken for the next sheet (C108_embedded_wrong); no report about a workbook with a BOF record as short as those versions have it can be printed in JSON or XML without reading behind its end (C108_report_wrong, C108_sheets_report_wrong). C108_dealt is the exact behaviour; C108_sheets_partial and C108_single say what holds. Missing: encrypted streams, declarations behind the first sheet."
  },
  {
   "property": "C109",
   "status": "partial",
   "theorems": [
    "Fileid.Props.C109_delete_partial",
    "Fileid.Props.C109_nothing",
    "Fileid.Props.C109_read_only",
    "Fileid.Props.C109_space",
    "Fileid.Props.C109_close",
    "Fileid.Props.C109_root_wrong",
    "Fileid.Props.C109_open_wrong",
    "Fileid.Props.C109_below_stream_wrong"
   ],
   "note": "False of the root (C109_root_wrong), of a stream that is open (C109_open_wrong) and of a stream with streams below it (C109_below_stream_wrong). C109_delete_partial: for everything else deleting is defined, ends, and leaves the map without the path and what is below it, so C106 applies to what follows. The flush at the end of deleteByName is in C112."
  },
  {
   "property": "C110",
   "status": "partial",
   "theorems": [
    "Fileid.Props.C110_reopen_partial",
    "Fileid.Props.C110_read_back_partial",
    "Fileid.Props.C110_empty_wrong",
    "Fileid.Props.C110_four_streams_wrong",
    "Fileid.Props.C110_names_wrong",
    "Fileid.Props.C110_linux_wrong",
    "Fileid.Props.C110_short_false",
    "Fileid.Props.C110_fat_wrong"
   ],
   "note": "False of new files without streams and of files that end in their last directory sector (C110_empty_wrong, C110_four_streams_wrong: opening them uses memory never written), of a storage with one stream of 30723 bytes (C110_fat_wrong: the FAT grows by a sector that is listed in the header and never written), and in general of every history after which the file ends before the end of a sector of its tables (C110_short_false), of names with units above 255 or of more than 32 units (C110_names_wrong), and on Linux (C110_linux_wrong). C110_reopen_partial and C110_read_back_partial: for every other history on Windows the flush succeeds and what is opened again shows the same map. Missing: FATs of more than 109 sectors, streams of 4 GB and more. Deleting and several flushes are in C112."
  },
  {
   "property": "C111",
   "status": "partial",
   "theorems": [
    "Fileid.Props.C111_reading_partial",
    "Fileid.Props.C111_written_wrong"
   ],
   "note": "False of a stream that is written between the reads, as the cache is not renewed (C111_written_wrong). C111_reading_partial: for every sequence without writes. Missing: reads of blocks that begin behind the end (C103_read_behind_end_wrong)."
  },
  {
   "property": "C112",
   "status": "partial",
   "theorems": [
    "Fileid.Props.C112_short_false",
    "Fileid.Props.C112_history_partial",
    "Fileid.Props.C112_reopen_partial",
    "Fileid.Props.C112_read_back_partial",
    "Fileid.Props.C112_no_failure_partial"
   ],
   "note": "C112_history_partial, C112_reopen_partial, C112_read_back_partial, C112_no_failure_partial. Missing: what is false (C106, C109, C110: streams below streams, streams deleted while open, names and sizes that cannot be stored, files that end before the end of a sector of their tables (C112_short_false), Linux), FATs of more than 109 sectors (for their list see C115; beyond 173 it is wrong). For files that are opened again and then changed see C114."
  },
  {
   "property": "C113",
   "status": "partial",
   "theorems": [
    "Fileid.Props.C113_open_partial",
    "Fileid.Props.C113_history_partial"
   ],
   "note": "C113_open_partial, C113_history_partial. Missing: what is false (Linux, where names are read wrongly, C45; names in an order the library does not expect, C71), and what C106 leaves out."
  },
  {
   "property": "C114",
   "status": "partial",
   "theorems": [
    "Fileid.Props.C114_no_minifat_false",
    "Fileid.Props.C114_no_minifat_wrong",
    "Fileid.Props.C114_history_partial",
    "Fileid.Props.C114_valid_partial",
    "Fileid.Props.C114_new_partial",
    "Fileid.Props.C114_generations_partial",
    "Fileid.Props.C114_class_id_wrong",
    "Fileid.Props.C114_short_false"
   ],
   "note": "C114_history_partial, C114_valid_partial, C114_new_partial, C114_generations_partial; C114_class_id_wrong: class identifiers (and all the library does not load) of entries in directory sectors that are written are lost; C114_no_minifat_false, C114_no_minifat_wrong: in a valid file without mini FAT, once any stream below 4096 bytes has a byte, no flush succeeds: it writes behind the end of a buffer; C114_short_false: changes after which the file ends before the end of a sector of its tables make it unreadable. Missing: what C112 and C113 leave out (where the code is wrong), files with other sector sizes, names of 32 units; wide names (false, C110_names_wrong), and files whose FAT does not mark its own sectors."
  },
  {
   "property": "C115",
   "status": "partial",
   "theorems": [
    "Fileid.Props.C115_grows",
    "Fileid.Props.C115_new",
    "Fileid.Props.C115_listed_partial",
    "Fileid.Props.C115_listed_wrong",
    "Fileid.Props.C115_defined_iff",
    "Fileid.Props.C115_foreign_wrong"
   ],
   "note": "C115_new, C115_grows (the list in memory is right, however far a storage grows), C115_listed_partial: up to 172 FAT sectors the list in the file is right. C115_listed_wrong: from 174 on it is wrong for every reader, and the library does not find its own FAT: it puts 63 numbers in a sector, where the format and its own reader have 127, and goes on in the same buffer (173 depends on memory that is not initialised). C115_defined_iff: when writing the list reads outside of it; C115_foreign_wrong: this happens with all files by other programs with 235 FAT sectors in one list sector, and so on, once their FAT grows. Missing: nothing but what is false."
  },
  {
   "property": "C116",
   "status": "partial",
   "theorems": [
    "Fileid.Props.C116_random",
    "Fileid.Props.C116_every",
    "Fileid.Props.C116_empty_wrong",
    "Fileid.Props.C116_name",
    "Fileid.Props.C116_even",
    "Fileid.Props.C116_new_false"
   ],
   "note": "C116_random, C116_every, C116_name, C116_even (different draws below 62 give different names). False: with an empty set the function is undefined (C116_empty_wrong); nothing makes sure that the name is new (C116_new_false). That 2^32 seeds give only as many of the 62^24 names is not modelled (the generator is an arbitrary source)."
  },
  {
   "property": "C117",
   "status": "partial",
   "theorems": [
    "Fileid.Props.C117_crossing_wrong",
    "Fileid.Props.C117_requests_partial",
    "Fileid.Props.C117_any_storage_partial",
    "Fileid.Props.C117_in_use_partial",
    "Fileid.Props.C117_answered_partial",
    "Fileid.Props.C117_program_partial",
    "Fileid.Props.C117_any_program_partial",
    "Fileid.Props.C117_in_use_answered_partial",
    "Fileid.Props.C117_live_program_partial",
    "Fileid.Props.C117_edit_program_partial"
   ],
   "note": "False: exactly the requests that take a stream with bytes over the threshold of 4096 bytes, or setSize back below it, delete an array with delete (C117_crossing_wrong, C117_any_storage_partial). C117_requests_partial: every other request is answered, and right; C117_in_use_partial: also after deletes, flushes and closing. Missing: reading from behind the end (false, C103) and a stream opened twice (false, C105); in storages of more than 512 GB, with more than 4 GB of small streams or more than 2^20 entries, that requests which create several entries at once or write to a stream below 4096 bytes come to an end (they do nothing else that is wrong); within these limits C117_answered_partial and C117_program_partial show that every request, and every program, is answered, C117_in_use_answered_partial the same after deletes, flushes and closing, C117_live_program_partial whole programs with these, and C117_edit_program_partial programs that change a compound file by another program."
  },
  {
   "property": "C118",
   "status": "partial",
   "theorems": [
    "Fileid.Props.C118_stats_partial",
    "Fileid.Props.C118_no_minifat_false",
    "Fileid.Props.C118_consistent",
    "Fileid.Props.C118_room_partial",
    "Fileid.Props.C118_small_room_partial",
    "Fileid.Props.C118_new_partial"
   ],
   "note": "C118_stats_partial, C118_consistent; C118_room_partial, C118_small_room_partial, C118_new_partial: what was written is never in blocks that are reported as free. False of files without a mini FAT, which have 128 free small blocks by the statistics and none in fact (C118_no_minifat_false). Directories must have the types of MS-CFB and names in used slots (ProperSlots)."
  },
  {
   "property": "C119",
   "status": "partial",
   "theorems": [
    "Fileid.Props.C119_all_partial",
    "Fileid.Props.C119_root_partial",
    "Fileid.Props.C119_storage_partial",
    "Fileid.Props.C119_cycle_wrong",
    "Fileid.Props.C119_no_slash_wrong"
   ],
   "note": "C119_all_partial, C119_root_partial, C119_storage_partial: for well-formed directories in which no storage is inside itself. False of directories with a cycle, where the call does not return (C119_cycle_wrong), and of names without a slash at the end, where the listed paths are wrong (C119_no_slash_wrong)."
  }
 ]
}