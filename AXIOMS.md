# Axioms of each claimed theorem

Printed by `#print axioms`, one theorem per line; `-` means none.

| theorem | axioms |
|---|---|
| `Fileid.Props.C01_signature_match` | propext, Classical.choice, Quot.sound |
| `Fileid.Props.C02_identification` | propext, Classical.choice, Quot.sound |
| `Fileid.Props.C02_sound_and_complete` | propext, Classical.choice, Quot.sound |
| `Fileid.Props.C03_round_up_least` | propext, Classical.choice, Quot.sound |
| `Fileid.Props.C03_round_up_rest` | propext, Classical.choice, Quot.sound |
| `Fileid.Props.C03_window` | propext, Classical.choice, Quot.sound |
| `Fileid.Props.C03_window_table` | propext |
| `Fileid.Props.C04_at_least_one` | propext, Quot.sound |
| `Fileid.Props.C04_unknown` | propext, Classical.choice, Quot.sound |
| `Fileid.Props.C05_empty_iff_partial` | propext, Classical.choice, Quot.sound |
| `Fileid.Props.C05_absent_reported_empty` | propext, Quot.sound |
| `Fileid.Props.C05_4GiB_reported_empty` | propext, Quot.sound |
| `Fileid.Props.C06_read_prefix_partial` | propext, Quot.sound |
| `Fileid.Props.C06_read_prefix_modulo` | propext, Quot.sound |
| `Fileid.Props.C06_4GiB_wrong` | propext, Quot.sound |
| `Fileid.Props.C07_repeated_reports` | propext, Classical.choice, Quot.sound |
| `Fileid.Props.C07_not_repeatable` | propext, Classical.choice, Quot.sound |
| `Fileid.Props.C07_unidentified_partial` | propext, Classical.choice, Quot.sound |
| `Fileid.Props.C08_hexdump_roundtrip` | propext, Classical.choice, Quot.sound |
| `Fileid.Props.C08_hexdump_length` | propext, Classical.choice, Quot.sound |
| `Fileid.Props.C08_hexdump_digits` | propext, Quot.sound |
| `Fileid.Props.C08_hexdump_injective` | propext, Classical.choice, Quot.sound |
| `Fileid.Props.C09_int_to_hex` | propext, Classical.choice, Quot.sound |
| `Fileid.Props.C09_int_to_hex_injective` | propext, Quot.sound |
| `Fileid.Props.C10_json_escape_reads_prefix` | propext, Classical.choice, Quot.sound |
| `Fileid.Props.C10_json_escape_printable` | propext, Quot.sound |
| `Fileid.Props.C10_json_escape_lossless_partial` | propext, Classical.choice, Quot.sound |
| `Fileid.Props.C10_json_escape_not_lossless` | propext |
| `Fileid.Props.C10_json_escape_injective_partial` | propext, Classical.choice, Quot.sound |
| `Fileid.Props.C11_xml_escape_safe` | propext, Quot.sound |
| `Fileid.Props.C11_xml_escape_references` | propext, Quot.sound |
| `Fileid.Props.C12_xml_escape_reads_swapped` | propext, Quot.sound |
| `Fileid.Props.C12_xml_escape_lossless_partial` | propext, Quot.sound |
| `Fileid.Props.C12_xml_escape_not_lossless` | propext |
| `Fileid.Props.C12_xml_escape_injective` | propext, Quot.sound |
| `Fileid.Props.C13_ltrim` | propext, Quot.sound |
| `Fileid.Props.C13_rtrim` | propext, Quot.sound |
| `Fileid.Props.C13_trim` | propext, Quot.sound |
| `Fileid.Props.C13_trim_all` | propext, Quot.sound |
| `Fileid.Props.C13_trim_idempotent` | propext, Quot.sound |
| `Fileid.Props.C14_erasenulls` | propext, Quot.sound |
| `Fileid.Props.C15_iequals` | propext, Quot.sound |
| `Fileid.Props.C15_iequals_equivalence` | propext, Quot.sound |
| `Fileid.Props.C15_iequals_wide_partial` | propext |
| `Fileid.Props.C15_iequals_wide_wrong` | propext |
| `Fileid.Props.C16_duration` | propext, Classical.choice, Quot.sound |
| `Fileid.Props.C17_timestamp_partial` | propext, Classical.choice, Quot.sound |
| `Fileid.Props.C17_timestamp_epoch` | propext, Quot.sound |
| `Fileid.Props.C17_timestamp_wrong_before_1970` | propext |
| `Fileid.Props.C17_timestamp_depends_on_errno` | propext |
| `Fileid.Props.C17_timestamp_iff_partial` | propext, Classical.choice, Quot.sound |
| `Fileid.Props.C18_ushort_outcome_partial` | propext, Quot.sound |
| `Fileid.Props.C18_ushort_unsafe` | propext |
| `Fileid.Props.C18_uint_outcome_partial` | propext, Quot.sound |
| `Fileid.Props.C18_uint_unsafe` | propext |
| `Fileid.Props.C19_ushort_order` | propext, Quot.sound |
| `Fileid.Props.C19_sshort_order` | propext, Quot.sound |
| `Fileid.Props.C19_uint_reversed_partial` | propext, Quot.sound |
| `Fileid.Props.C19_sint_reversed_partial` | propext, Quot.sound |
| `Fileid.Props.C19_uint_order_wrong` | propext |
| `Fileid.Props.C20_string_partial` | propext, Quot.sound |
| `Fileid.Props.C20_string_unsafe` | propext |
| `Fileid.Props.C21_ulonglong` | propext, Quot.sound |
| `Fileid.Props.C21_ulong` | propext, Quot.sound |
| `Fileid.Props.C22_guid_equality` | propext, Classical.choice, Quot.sound |
| `Fileid.Props.C22_guid_equality_exact` | propext, Classical.choice, Quot.sound |
| `Fileid.Props.C23_extract_bits` | propext, Classical.choice, Quot.sound |
| `Fileid.Props.C23_position_zero` | propext |
| `Fileid.Props.C24_format_lower_partial` | propext |
| `Fileid.Props.C24_usage_names_ignored` | - |
| `Fileid.Props.C25_extractor_items` | propext, Classical.choice, Quot.sound |
| `Fileid.Props.C25_json_document_items` | propext, Classical.choice, Quot.sound |
| `Fileid.Props.C25_json_document` | propext, Classical.choice, Quot.sound |
| `Fileid.Props.C25_unescaped_name_breaks` | propext |
| `Fileid.Props.C26_extractor_items` | propext, Classical.choice, Quot.sound |
| `Fileid.Props.C26_xml_document_items_partial` | propext, Quot.sound |
| `Fileid.Props.C26_xml_document_partial` | propext, Quot.sound |
| `Fileid.Props.C26_control_character_breaks` | propext |
| `Fileid.Props.C27_macho_fields` | propext |
| `Fileid.Props.C27_unknown_fields` | - |
| `Fileid.Props.C27_zip_fields` | - |
| `Fileid.Props.C27_compound_fields` | propext, Quot.sound |
| `Fileid.Props.C27_text_lines` | propext |
| `Fileid.Props.C27_csv_lines` | propext |
| `Fileid.Props.C27_fields` | propext, Quot.sound |
| `Fileid.Props.C27_table_rows_clean` | propext |
| `Fileid.Props.C27_csv_comma_breaks` | - |
| `Fileid.Props.C27_archive_fields` | propext |
| `Fileid.Props.C28_kind_partial` | propext, Classical.choice, Quot.sound |
| `Fileid.Props.C28_wraps` | propext, Classical.choice, Quot.sound |
| `Fileid.Props.C29_in_bounds_iff_partial` | propext, Classical.choice, Quot.sound |
| `Fileid.Props.C29_short_file_ub` | propext, Classical.choice, Quot.sound |
| `Fileid.Props.C30_cpu_names` | propext, Quot.sound |
| `Fileid.Props.C30_little_endian_partial` | propext, Classical.choice, Quot.sound |
| `Fileid.Props.C30_big_endian_misread` | propext, Classical.choice, Quot.sound |
| `Fileid.Props.C30_in_bounds_iff_partial` | propext, Classical.choice, Quot.sound |
| `Fileid.Props.C30_short_file_ub` | propext, Classical.choice, Quot.sound |
| `Fileid.Props.C31_riff_kind` | propext, Classical.choice, Quot.sound |
| `Fileid.Props.C31_short_is_riff` | propext, Classical.choice, Quot.sound |
| `Fileid.Props.C32_mp4_outcome_partial` | propext, Quot.sound |
| `Fileid.Props.C32_short_file_throws` | propext, Classical.choice, Quot.sound |
| `Fileid.Props.C33_dwg_release` | propext, Quot.sound |
| `Fileid.Props.C34_installer_kind` | propext, Quot.sound |
| `Fileid.Props.C35_scan_partial` | propext, Classical.choice, Quot.sound |
| `Fileid.Props.C35_scan_taken` | propext, Classical.choice, Quot.sound |
| `Fileid.Props.C35_values_partial` | propext, Classical.choice, Quot.sound |
| `Fileid.Props.C35_empty_value_swallows` | propext, Quot.sound |
| `Fileid.Props.C36_distinct_partial` | propext, Classical.choice, Quot.sound |
| `Fileid.Props.C36_marker_pair_repeats` | propext |
| `Fileid.Props.C37_history_effect_partial` | propext, Classical.choice, Quot.sound |
| `Fileid.Props.C37_independent_partial` | propext, Classical.choice, Quot.sound |
| `Fileid.Props.C37_second_archive_lost` | propext, Classical.choice, Quot.sound |
| `Fileid.Props.C38_header_round_trip` | propext, Classical.choice, Quot.sound |
| `Fileid.Props.C38_valid_header` | propext, Classical.choice, Quot.sound |
| `Fileid.Props.C38_layout` | propext, Classical.choice, Quot.sound |
| `Fileid.Props.C39_follow` | propext, Classical.choice, Quot.sound |
| `Fileid.Props.C39_only_chains` | propext, Classical.choice, Quot.sound |
| `Fileid.Props.C40_false` | propext |
| `Fileid.Props.C40_terminates_iff_partial` | propext, Quot.sound |
| `Fileid.Props.C40_budget_partial` | propext, Classical.choice, Quot.sound |
| `Fileid.Props.C41_table_round_trip` | propext, Classical.choice, Quot.sound |
| `Fileid.Props.C41_layout` | propext, Classical.choice, Quot.sound |
| `Fileid.Props.C41_load` | propext, Quot.sound |
| `Fileid.Props.C42_children` | propext, Classical.choice, Quot.sound |
| `Fileid.Props.C42_entries` | propext, Classical.choice, Quot.sound |
| `Fileid.Props.C43_find_child` | propext, Classical.choice, Quot.sound |
| `Fileid.Props.C43_path` | propext, Classical.choice, Quot.sound |
| `Fileid.Props.C43_exists_iff_listed` | propext, Classical.choice, Quot.sound |
| `Fileid.Props.C44_read_large_partial` | propext, Quot.sound |
| `Fileid.Props.C44_cut_repeats_wrong` | propext, Quot.sound |
| `Fileid.Props.C44_cut_unwritten_wrong` | propext, Classical.choice, Quot.sound |
| `Fileid.Props.C44_false` | propext, Quot.sound |
| `Fileid.Props.C45_windows_partial` | propext, Classical.choice, Quot.sound |
| `Fileid.Props.C45_linux_false` | propext, Classical.choice, Quot.sound |
| `Fileid.Props.C45_windows_false` | propext |
| `Fileid.Props.C46_made_iff` | propext, Classical.choice, Quot.sound |
| `Fileid.Props.C46_kinds_partial` | propext, Classical.choice, Quot.sound |
| `Fileid.Props.C46_generic_partial` | propext, Classical.choice, Quot.sound |
| `Fileid.Props.C46_table` | propext, Quot.sound |
| `Fileid.Props.C46_made_partial` | propext, Classical.choice, Quot.sound |
| `Fileid.Props.C46_linux_false` | propext, Classical.choice, Quot.sound |
| `Fileid.Props.C46_subtypes_lost` | propext |
| `Fileid.Props.C46_no_project_false` | propext, Quot.sound |
| `Fileid.Props.C46_empty_workbook_false` | propext, Classical.choice, Quot.sound |
| `Fileid.Props.C46_case_false` | propext, Classical.choice, Quot.sound |
| `Fileid.Props.C46_empty_workbook_file_false` | propext, Classical.choice, Quot.sound |
| `Fileid.Props.C46_no_project_file_false` | propext, Classical.choice, Quot.sound |
| `Fileid.Props.C47_partial` | propext, Classical.choice, Quot.sound |
| `Fileid.Props.C47_raw_false` | propext, Quot.sound |
| `Fileid.Props.C48_partial` | propext, Classical.choice, Quot.sound |
| `Fileid.Props.C48_trailing_false` | propext, Classical.choice, Quot.sound |
| `Fileid.Props.C48_empty_false` | propext |
| `Fileid.Props.C48_wrap_false` | propext, Quot.sound |
| `Fileid.Props.C49_listed_partial` | propext, Classical.choice, Quot.sound |
| `Fileid.Props.C49_complete_partial` | propext, Classical.choice, Quot.sound |
| `Fileid.Props.C49_final_empty_wrong` | propext, Classical.choice, Quot.sound |
| `Fileid.Props.C49_final_wrong` | propext, Classical.choice, Quot.sound |
| `Fileid.Props.C49_whole_partial` | propext, Classical.choice, Quot.sound |
| `Fileid.Props.C50_name` | propext, Quot.sound |
| `Fileid.Props.C50_standard` | propext, Classical.choice, Quot.sound |
| `Fileid.Props.C50_injective` | propext, Quot.sound |
| `Fileid.Props.C50_zero` | - |
| `Fileid.Props.C51_names_one_cell` | propext, Classical.choice, Quot.sound |
| `Fileid.Props.C51_formula_partial` | propext, Quot.sound |
| `Fileid.Props.C51_ref_partial` | propext, Classical.choice, Quot.sound |
| `Fileid.Props.C51_ref3d_partial` | propext, Classical.choice, Quot.sound |
| `Fileid.Props.C51_area3d_partial` | propext, Classical.choice, Quot.sound |
| `Fileid.Props.C51_exp_partial` | propext, Quot.sound |
| `Fileid.Props.C51_area_false` | propext, Quot.sound |
| `Fileid.Props.C51_tbl_false` | propext, Classical.choice, Quot.sound |
| `Fileid.Props.C51_rk_false` | propext, Classical.choice, Quot.sound |
| `Fileid.Props.C51_mulblank_false` | propext, Quot.sound |
| `Fileid.Props.C51_blank_false` | propext, Quot.sound |
| `Fileid.Props.C51_boolerr_false` | propext, Quot.sound |
| `Fileid.Props.C51_labelsst_false` | propext, Quot.sound |
| `Fileid.Props.C52_elf_false` | propext, Quot.sound |
| `Fileid.Props.C52_attr_false` | propext, Quot.sound |
| `Fileid.Props.C52_choose_false` | propext |
| `Fileid.Props.C52_false` | propext, Quot.sound |
| `Fileid.Props.C52_partial` | propext, Classical.choice, Quot.sound |
| `Fileid.Props.C53_partial` | propext, Quot.sound |
| `Fileid.Props.C53_negative_false` | propext, Quot.sound |
| `Fileid.Props.C53_hundredths_false` | propext, Quot.sound |
| `Fileid.Props.C53_float_false` | propext, Quot.sound |
| `Fileid.Props.C54_identification_partial` | propext, Classical.choice, Quot.sound |
| `Fileid.Props.C54_names_distinct_partial` | propext, Classical.choice, Quot.sound |
| `Fileid.Props.C54_compatibility_wrong` | propext |
| `Fileid.Props.C55_walk_ends_partial` | propext, Classical.choice, Quot.sound |
| `Fileid.Props.C55_short_extension_wrong` | propext, Classical.choice, Quot.sound |
| `Fileid.Props.C55_framed_partial` | propext, Classical.choice, Quot.sound |
| `Fileid.Props.C55_broken_wrong` | propext, Classical.choice, Quot.sound |
| `Fileid.Props.C55_ends_partial` | propext, Classical.choice, Quot.sound |
| `Fileid.Props.C55_stuck_wrong` | propext, Classical.choice, Quot.sound |
| `Fileid.Props.C56_word_version` | propext, Quot.sound |
| `Fileid.Props.C56_version_unique` | propext, Quot.sound |
| `Fileid.Props.C56_word_names` | propext, Quot.sound |
| `Fileid.Props.C57_ppt_windows_partial` | propext, Quot.sound |
| `Fileid.Props.C57_ppt_in_bounds` | propext, Quot.sound |
| `Fileid.Props.C57_ppt_linux_wrong` | propext, Quot.sound |
| `Fileid.Props.C57_pub_partial` | propext, Quot.sound |
| `Fileid.Props.C57_pub_out_of_bounds_iff` | propext, Quot.sound |
| `Fileid.Props.C57_visio_partial` | propext, Quot.sound |
| `Fileid.Props.C57_short_streams_ub` | propext |
| `Fileid.Props.C57_publisher_names` | propext, Quot.sound |
| `Fileid.Props.C57_visio_names` | propext, Quot.sound |
| `Fileid.Props.C58_partial` | propext, Classical.choice, Quot.sound |
| `Fileid.Props.C58_i4_reversed` | propext, Quot.sound |
| `Fileid.Props.C58_i4_false` | propext, Classical.choice, Quot.sound |
| `Fileid.Props.C58_i2_false` | propext, Classical.choice, Quot.sound |
| `Fileid.Props.C58_ui4_false` | propext, Classical.choice, Quot.sound |
| `Fileid.Props.C58_wide_linux` | propext, Quot.sound |
| `Fileid.Props.C58_wide_false` | propext, Classical.choice, Quot.sound |
| `Fileid.Props.C58_empty_wide_unsafe` | propext, Quot.sound |
| `Fileid.Props.C58_offset_unsafe` | propext, Quot.sound |
| `Fileid.Props.C59_characteristics_partial` | propext, Classical.choice, Quot.sound |
| `Fileid.Props.C59_wraps` | propext, Classical.choice, Quot.sound |
| `Fileid.Props.C60_machine_names` | propext, Quot.sound |
| `Fileid.Props.C60_machine_partial` | propext, Classical.choice, Quot.sound |
| `Fileid.Props.C60_subsystem_partial` | propext, Classical.choice, Quot.sound |
| `Fileid.Props.C60_subsystem_wrong` | propext, Quot.sound |
| `Fileid.Props.C61_versions_partial` | propext, Classical.choice, Quot.sound |
| `Fileid.Props.C61_header_beyond_2047` | propext, Classical.choice, Quot.sound |
| `Fileid.Props.C62_exe_iff_partial` | propext, Classical.choice, Quot.sound |
| `Fileid.Props.C62_signature_ignored` | propext, Quot.sound |
| `Fileid.Props.C63_tolerance_partial` | propext, Classical.choice, Quot.sound |
| `Fileid.Props.C63_exact_builds_partial` | - |
| `Fileid.Props.C63_builds_misnamed` | propext, Quot.sound |
| `Fileid.Props.C64_archive_report_partial` | propext, Classical.choice, Quot.sound |
| `Fileid.Props.C64_taken_report` | propext, Classical.choice, Quot.sound |
| `Fileid.Props.C64_empty_value_wrong` | propext, Classical.choice, Quot.sound |
| `Fileid.Props.C64_vba_without_binary` | propext, Classical.choice, Quot.sound |
| `Fileid.Props.C64_vba_last_binary` | propext, Classical.choice, Quot.sound |
| `Fileid.Props.C65_office_types` | propext |
| `Fileid.Props.C65_odf_types_partial` | propext |
| `Fileid.Props.C65_odf_presentation_wrong` | propext |
| `Fileid.Props.C65_odf_reported` | propext, Classical.choice, Quot.sound |
| `Fileid.Props.C66_json_archive_item_partial` | propext, Classical.choice, Quot.sound |
| `Fileid.Props.C66_json_entry_name_breaks` | propext |
| `Fileid.Props.C66_xml_archive_item_partial` | propext, Quot.sound |
| `Fileid.Props.C66_xml_entry_name_breaks` | propext |
| `Fileid.Props.C66_archive_documents_partial` | propext, Classical.choice, Quot.sound |
| `Fileid.Props.C66_large_entry_negative` | - |
| `Fileid.Props.C67_read_small_partial` | propext, Classical.choice, Quot.sound |
| `Fileid.Props.C68_entry` | propext, Classical.choice, Quot.sound |
| `Fileid.Props.C68_directory` | propext, Classical.choice, Quot.sound |
| `Fileid.Props.C68_open` | propext, Classical.choice, Quot.sound |
| `Fileid.Props.C69_fat_cut_false` | propext, Classical.choice, Quot.sound |
| `Fileid.Props.C69_minifat_cut_false` | propext, Classical.choice, Quot.sound |
| `Fileid.Props.C69_directory_cut_false` | propext, Classical.choice, Quot.sound |
| `Fileid.Props.C69_cut_false` | propext, Classical.choice, Quot.sound |
| `Fileid.Props.C69_uncut_partial` | propext, Classical.choice, Quot.sound |
| `Fileid.Props.C69_short_file_false` | propext, Classical.choice, Quot.sound |
| `Fileid.Props.C69_refused_partial` | propext, Classical.choice, Quot.sound |
| `Fileid.Props.C69_no_directory_false` | propext, Classical.choice, Quot.sound |
| `Fileid.Props.C70_false` | propext |
| `Fileid.Props.C70_listing_partial` | propext, Classical.choice, Quot.sound |
| `Fileid.Props.C71_false` | propext, Quot.sound |
| `Fileid.Props.C71_upper_case_partial` | propext |
| `Fileid.Props.C72_partial` | propext, Classical.choice, Quot.sound |
| `Fileid.Props.C72_record_partial` | propext, Classical.choice, Quot.sound |
| `Fileid.Props.C72_memErr_false` | propext |
| `Fileid.Props.C72_areaErr3d_false` | propext |
| `Fileid.Props.C72_command_false` | propext, Classical.choice, Quot.sound |
| `Fileid.Props.C72_wide_string_false` | propext |
| `Fileid.Props.C72_wide_string_windows_false` | propext |
| `Fileid.Props.C72_extra_data_false` | propext |
| `Fileid.Props.C73_value` | propext, Classical.choice, Quot.sound |
| `Fileid.Props.C74_walk_partial` | propext, Classical.choice, Quot.sound |
| `Fileid.Props.C74_false` | propext, Classical.choice, Quot.sound |
| `Fileid.Props.C75_paths_partial` | propext, Classical.choice, Quot.sound |
| `Fileid.Props.C75_every_object` | propext |
| `Fileid.Props.C75_wordperfect_false` | propext, Classical.choice, Quot.sound |
| `Fileid.Props.C76_stream_content` | propext, Classical.choice, Quot.sound |
| `Fileid.Props.C76_no_stream` | propext |
| `Fileid.Props.C77_windows_iff` | propext, Classical.choice, Quot.sound |
| `Fileid.Props.C77_linux_false` | propext, Classical.choice, Quot.sound |
| `Fileid.Props.C77_text_partial` | propext |
| `Fileid.Props.C77_windows_partial` | propext, Classical.choice, Quot.sound |
| `Fileid.Props.C77_wordperfect_false` | propext |
| `Fileid.Props.C77_json_paths` | propext, Quot.sound |
| `Fileid.Props.C78_dump` | propext, Classical.choice, Quot.sound |
| `Fileid.Props.C79_list` | propext, Classical.choice, Quot.sound |
| `Fileid.Props.C80_project_name_partial` | propext, Classical.choice, Quot.sound |
| `Fileid.Props.C80_compat_false` | propext, Quot.sound |
| `Fileid.Props.C81_version_false` | propext, Classical.choice, Quot.sound |
| `Fileid.Props.C82_no_references_partial` | propext, Classical.choice, Quot.sound |
| `Fileid.Props.C82_references_false` | propext, Classical.choice, Quot.sound |
| `Fileid.Props.C82_second_reference_false` | propext, Classical.choice, Quot.sound |
| `Fileid.Props.C83_modules_partial` | propext, Classical.choice, Quot.sound |
| `Fileid.Props.C83_references_wrong` | propext, Classical.choice, Quot.sound |
| `Fileid.Props.C83_project_partial` | propext, Classical.choice, Quot.sound |
| `Fileid.Props.C83_missing_stream_false` | propext |
| `Fileid.Props.C83_linux_false` | propext |
| `Fileid.Props.C84_directory_ends` | propext, Classical.choice, Quot.sound |
| `Fileid.Props.C85_large_header_wrong` | propext, Classical.choice, Quot.sound |
| `Fileid.Props.C85_kind_no_codecs_partial` | propext, Classical.choice, Quot.sound |
| `Fileid.Props.C85_kind_partial` | propext, Classical.choice, Quot.sound |
| `Fileid.Props.C85_decided_partial` | propext, Classical.choice, Quot.sound |
| `Fileid.Props.C85_single_video_wrong` | propext, Classical.choice, Quot.sound |
| `Fileid.Props.C85_several_audio_wrong` | propext, Classical.choice, Quot.sound |
| `Fileid.Props.C86_shown_as_understood_partial` | propext, Classical.choice, Quot.sound |
| `Fileid.Props.C86_shown_partial` | propext, Classical.choice, Quot.sound |
| `Fileid.Props.C86_content_description_wrong` | propext, Classical.choice, Quot.sound |
| `Fileid.Props.C86_dword_wrong` | propext, Classical.choice, Quot.sound |
| `Fileid.Props.C86_large_header_wrong` | propext, Classical.choice, Quot.sound |
| `Fileid.Props.C86_empty_attributes_wrong` | propext, Quot.sound |
| `Fileid.Props.C86_empty_codecs_wrong` | propext, Quot.sound |
| `Fileid.Props.C86_quoted_title_wrong` | propext, Quot.sound |
| `Fileid.Props.C87_linux_wrong` | propext, Classical.choice, Quot.sound |
| `Fileid.Props.C88_sheets_partial` | propext, Classical.choice, Quot.sound |
| `Fileid.Props.C88_complete_partial` | propext, Classical.choice, Quot.sound |
| `Fileid.Props.C88_wide_name_wrong` | propext, Classical.choice, Quot.sound |
| `Fileid.Props.C88_late_declaration_wrong` | propext |
| `Fileid.Props.C90_rest_ignored_partial` | propext, Classical.choice, Quot.sound |
| `Fileid.Props.C90_shown_partial` | propext, Classical.choice, Quot.sound |
| `Fileid.Props.C90_api_shown_partial` | propext, Classical.choice, Quot.sound |
| `Fileid.Props.C90_api_hash_wrong` | propext, Classical.choice, Quot.sound |
| `Fileid.Props.C90_api_linux_wrong` | propext, Classical.choice, Quot.sound |
| `Fileid.Props.C90_short_wrong` | propext |
| `Fileid.Props.C89_json_partial` | propext, Classical.choice, Quot.sound |
| `Fileid.Props.C89_xml_partial` | propext, Classical.choice, Quot.sound |
| `Fileid.Props.C89_xml_false` | propext, Classical.choice, Quot.sound |
| `Fileid.Props.C89_nan_false` | propext, Quot.sound |
| `Fileid.Props.C91_json_partial` | propext, Classical.choice, Quot.sound |
| `Fileid.Props.C91_xml_partial` | propext, Classical.choice, Quot.sound |
| `Fileid.Props.C91_json_false` | propext, Classical.choice, Quot.sound |
| `Fileid.Props.C91_xml_false` | propext, Classical.choice, Quot.sound |
| `Fileid.Props.C91_link_path` | propext, Quot.sound |
| `Fileid.Props.C92_analyzed` | propext |
| `Fileid.Props.C92_json_partial` | propext, Classical.choice, Quot.sound |
| `Fileid.Props.C92_xml_partial` | propext, Classical.choice, Quot.sound |
| `Fileid.Props.C92_json_false` | propext, Classical.choice, Quot.sound |
| `Fileid.Props.C92_source_false` | propext, Quot.sound |
| `Fileid.Props.C93_identified` | propext, Classical.choice, Quot.sound |
| `Fileid.Props.C93_json_partial` | propext, Classical.choice, Quot.sound |
| `Fileid.Props.C93_xml_partial` | propext, Classical.choice, Quot.sound |
| `Fileid.Props.C93_compound` | propext, Classical.choice, Quot.sound |
| `Fileid.Props.C93_asf_partial` | propext, Classical.choice, Quot.sound |
| `Fileid.Props.C94_header_false` | propext, Classical.choice, Quot.sound |
| `Fileid.Props.C94_reported_partial` | propext, Classical.choice, Quot.sound |
| `Fileid.Props.C95_macros_false` | propext, Classical.choice, Quot.sound |
| `Fileid.Props.C95_declared_partial` | propext, Classical.choice, Quot.sound |
| `Fileid.Props.C96_shown_partial` | propext, Classical.choice, Quot.sound |
| `Fileid.Props.C96_highest_wrong` | propext, Classical.choice, Quot.sound |
| `Fileid.Props.C96_wide_wrong` | propext, Classical.choice, Quot.sound |
| `Fileid.Props.C96_formula_wrong` | propext, Classical.choice, Quot.sound |
| `Fileid.Props.C96_rich_wrong` | propext |
| `Fileid.Props.C96_continued_wrong` | propext |
| `Fileid.Props.C96_link_wrong` | propext, Classical.choice, Quot.sound |
| `Fileid.Props.C96_shared_wrong` | propext |
| `Fileid.Props.C96_runs_wrong` | propext, Classical.choice, Quot.sound |
| `Fileid.Props.C96_other_shown_partial` | propext, Classical.choice, Quot.sound |
| `Fileid.Props.C96_self` | - |
| `Fileid.Props.C96_protect_wrong` | - |
| `Fileid.Props.C96_row_wrong` | propext, Classical.choice, Quot.sound |
| `Fileid.Props.C96_area_wrong` | propext, Classical.choice, Quot.sound |
| `Fileid.Props.C96_blanks_wrong` | propext, Quot.sound |
| `Fileid.Props.C96_number_wrong` | propext, Classical.choice, Quot.sound |
| `Fileid.Props.C96_icon_wrong` | propext, Classical.choice, Quot.sound |
| `Fileid.Props.C96_formula_flags_wrong` | propext, Classical.choice, Quot.sound |
| `Fileid.Props.C97_workbook` | propext, Quot.sound |
| `Fileid.Props.C97_record_shown` | propext, Quot.sound |
| `Fileid.Props.C97_classes` | propext, Quot.sound |
| `Fileid.Props.C97_properties` | propext, Quot.sound |
| `Fileid.Props.C97_executables` | propext, Quot.sound |
| `Fileid.Props.C97_characteristics_wrong` | propext |
| `Fileid.Props.C97_brand_wrong` | - |
| `Fileid.Props.C97_brands_partial` | propext, Quot.sound |
| `Fileid.Props.C97_asf` | propext, Quot.sound |
| `Fileid.Props.C98_as_described` | propext, Classical.choice, Quot.sound |
| `Fileid.Props.C98_recognised` | propext, Classical.choice, Quot.sound |
| `Fileid.Props.C98_usable` | propext, Quot.sound |
| `Fileid.Props.C99_records` | propext |
| `Fileid.Props.C99_functions` | propext |
| `Fileid.Props.C99_commands` | propext |
| `Fileid.Props.C100_properties_shown` | propext, Quot.sound |
| `Fileid.Props.C100_documents_partial` | propext, Classical.choice, Quot.sound |
| `Fileid.Props.C101_kinds` | propext |
| `Fileid.Props.C101_visibilities` | propext |
| `Fileid.Props.C101_json_partial` | propext, Classical.choice, Quot.sound |
| `Fileid.Props.C101_xml_partial` | propext, Classical.choice, Quot.sound |
| `Fileid.Props.C102_json_partial` | propext, Classical.choice, Quot.sound |
| `Fileid.Props.C102_xml_partial` | propext, Classical.choice, Quot.sound |
| `Fileid.Props.C103_history_partial` | propext, Classical.choice, Quot.sound |
| `Fileid.Props.C103_read_behind_end_wrong` | propext, Quot.sound |
| `Fileid.Props.C104_wrong` | propext, Quot.sound |
| `Fileid.Props.C104_setSize` | propext, Classical.choice, Quot.sound |
| `Fileid.Props.C104_crossing` | propext, Classical.choice, Quot.sound |
| `Fileid.Props.C105_two_objects_wrong` | propext, Quot.sound |
| `Fileid.Props.C105_open_partial` | propext, Classical.choice, Quot.sound |
| `Fileid.Props.C106_requests_partial` | propext, Classical.choice, Quot.sound |
| `Fileid.Props.C106_new_storage_partial` | propext, Classical.choice, Quot.sound |
| `Fileid.Props.C106_create` | propext, Classical.choice, Quot.sound |
| `Fileid.Props.C107_below_stream_wrong` | propext, Quot.sound |
| `Fileid.Props.C107_listed_partial` | propext, Classical.choice, Quot.sound |
| `Fileid.Props.C108_dealt` | propext, Classical.choice, Quot.sound |
| `Fileid.Props.C108_sheets_partial` | propext, Classical.choice, Quot.sound |
| `Fileid.Props.C108_described_wrong` | propext, Classical.choice, Quot.sound |
| `Fileid.Props.C108_single` | propext, Classical.choice, Quot.sound |
| `Fileid.Props.C108_order_wrong` | propext, Classical.choice, Quot.sound |
| `Fileid.Props.C108_embedded_wrong` | propext, Classical.choice, Quot.sound |
| `Fileid.Props.C108_report_wrong` | propext, Classical.choice, Quot.sound |
| `Fileid.Props.C108_sheets_report_wrong` | propext, Classical.choice, Quot.sound |
| `Fileid.Props.C109_delete_partial` | propext, Classical.choice, Quot.sound |
| `Fileid.Props.C109_nothing` | propext, Classical.choice, Quot.sound |
| `Fileid.Props.C109_read_only` | propext, Quot.sound |
| `Fileid.Props.C109_space` | propext, Classical.choice, Quot.sound |
| `Fileid.Props.C109_close` | propext |
| `Fileid.Props.C109_root_wrong` | propext, Quot.sound |
| `Fileid.Props.C109_open_wrong` | propext, Quot.sound |
| `Fileid.Props.C109_below_stream_wrong` | propext, Quot.sound |
| `Fileid.Props.C110_reopen_partial` | propext, Classical.choice, Quot.sound |
| `Fileid.Props.C110_read_back_partial` | propext, Classical.choice, Quot.sound |
| `Fileid.Props.C110_empty_wrong` | propext, Classical.choice, Quot.sound |
| `Fileid.Props.C110_four_streams_wrong` | propext, Classical.choice, Quot.sound |
| `Fileid.Props.C110_names_wrong` | propext, Classical.choice, Quot.sound |
| `Fileid.Props.C110_linux_wrong` | propext, Classical.choice, Quot.sound |
| `Fileid.Props.C110_short_false` | propext, Classical.choice, Quot.sound |
| `Fileid.Props.C110_fat_wrong` | propext, Classical.choice, Quot.sound |
| `Fileid.Props.C111_reading_partial` | propext, Classical.choice, Quot.sound |
| `Fileid.Props.C111_written_wrong` | propext, Quot.sound |
| `Fileid.Props.C112_short_false` | propext, Classical.choice, Quot.sound |
| `Fileid.Props.C112_history_partial` | propext, Classical.choice, Quot.sound |
| `Fileid.Props.C112_reopen_partial` | propext, Classical.choice, Quot.sound |
| `Fileid.Props.C112_read_back_partial` | propext, Classical.choice, Quot.sound |
| `Fileid.Props.C112_no_failure_partial` | propext, Classical.choice, Quot.sound |
| `Fileid.Props.C113_open_partial` | propext, Classical.choice, Quot.sound |
| `Fileid.Props.C113_history_partial` | propext, Classical.choice, Quot.sound |
| `Fileid.Props.C114_no_minifat_false` | propext, Classical.choice, Quot.sound |
| `Fileid.Props.C114_no_minifat_wrong` | propext, Classical.choice, Quot.sound |
| `Fileid.Props.C114_history_partial` | propext, Classical.choice, Quot.sound |
| `Fileid.Props.C114_valid_partial` | propext, Classical.choice, Quot.sound |
| `Fileid.Props.C114_new_partial` | propext, Classical.choice, Quot.sound |
| `Fileid.Props.C114_generations_partial` | propext, Classical.choice, Quot.sound |
| `Fileid.Props.C114_class_id_wrong` | propext, Classical.choice, Quot.sound |
| `Fileid.Props.C114_short_false` | propext, Classical.choice, Quot.sound |
| `Fileid.Props.C115_grows` | propext, Classical.choice, Quot.sound |
| `Fileid.Props.C115_new` | propext, Classical.choice, Quot.sound |
| `Fileid.Props.C115_listed_partial` | propext, Classical.choice, Quot.sound |
| `Fileid.Props.C115_listed_wrong` | propext, Classical.choice, Quot.sound |
| `Fileid.Props.C115_defined_iff` | propext, Classical.choice, Quot.sound |
| `Fileid.Props.C115_foreign_wrong` | propext, Classical.choice, Quot.sound |
| `Fileid.Props.C116_random` | propext, Quot.sound |
| `Fileid.Props.C116_every` | propext, Classical.choice, Quot.sound |
| `Fileid.Props.C116_empty_wrong` | propext |
| `Fileid.Props.C116_name` | propext, Quot.sound |
| `Fileid.Props.C116_even` | propext, Quot.sound |
| `Fileid.Props.C116_new_false` | propext, Classical.choice, Quot.sound |
| `Fileid.Props.C117_crossing_wrong` | propext, Classical.choice, Quot.sound |
| `Fileid.Props.C117_requests_partial` | propext, Classical.choice, Quot.sound |
| `Fileid.Props.C117_any_storage_partial` | propext, Classical.choice, Quot.sound |
| `Fileid.Props.C117_in_use_partial` | propext, Classical.choice, Quot.sound |
| `Fileid.Props.C117_answered_partial` | propext, Classical.choice, Quot.sound |
| `Fileid.Props.C117_program_partial` | propext, Classical.choice, Quot.sound |
| `Fileid.Props.C117_any_program_partial` | propext, Classical.choice, Quot.sound |
| `Fileid.Props.C117_in_use_answered_partial` | propext, Classical.choice, Quot.sound |
| `Fileid.Props.C117_live_program_partial` | propext, Classical.choice, Quot.sound |
| `Fileid.Props.C117_edit_program_partial` | propext, Classical.choice, Quot.sound |
| `Fileid.Props.C118_stats_partial` | propext, Classical.choice, Quot.sound |
| `Fileid.Props.C118_no_minifat_false` | propext, Classical.choice, Quot.sound |
| `Fileid.Props.C118_consistent` | propext |
| `Fileid.Props.C118_room_partial` | propext, Classical.choice, Quot.sound |
| `Fileid.Props.C118_small_room_partial` | propext, Classical.choice, Quot.sound |
| `Fileid.Props.C118_new_partial` | propext, Classical.choice, Quot.sound |
| `Fileid.Props.C119_all_partial` | propext, Classical.choice, Quot.sound |
| `Fileid.Props.C119_root_partial` | propext, Classical.choice, Quot.sound |
| `Fileid.Props.C119_storage_partial` | propext, Classical.choice, Quot.sound |
| `Fileid.Props.C119_cycle_wrong` | propext |
| `Fileid.Props.C119_no_slash_wrong` | propext |
