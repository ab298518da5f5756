# Axioms of each theorem in MANIFEST.json

Output of `#print axioms` for every theorem listed in MANIFEST.json, grouped by the set of axioms.
No other axiom occurs: no `sorryAx`, no `Lean.ofReduceBool`, no axiom declared in this project.

## Axioms: none (12 theorems)

- `Verif.Props.C26_not_exact`
- `Verif.Props.C26_not_floor`
- `Verif.Props.C31_refused`
- `Verif.Props.C35_prepare`
- `Verif.Props.C39_cut_or_header_accepted`
- `Verif.Props.C50_odd_geometry_accepted`
- `Verif.Props.C94_last_compacted_size_none`
- `Verif.Props.BootFieldsEx.C113_extended_numbers`
- `Verif.Props.Names16.C116_surrogates_alike`
- `Verif.Props.Names16.C116_streams_mixed`
- `Verif.Props.LogFields.C117_open_attribute_short`
- `Verif.Props.Shared.C134_threads`

## Axioms: propext (5 theorems)

- `Verif.Props.C32_position_too_large`
- `Verif.Props.C41_copy`
- `Verif.Props.C41_forwarded`
- `Verif.Props.C50_boot_code`
- `Verif.Props.ExFAT.C74_time_zone`

## Axioms: propext, Classical.choice, Quot.sound (465 theorems)

- `Verif.Props.C01_encode_decode`
- `Verif.Props.C01_decode_encode`
- `Verif.Props.C01_decode_range`
- `Verif.Props.C01_injective`
- `Verif.Props.C02_mapping_pairs_roundtrip`
- `Verif.Props.C03_mapping_pairs_sound`
- `Verif.Props.C03_mapping_pairs_only_exception`
- `Verif.Props.C03_lengths_positive`
- `Verif.Props.C03_zero_only_first`
- `Verif.Props.C04_negative_lcn_accepted`
- `Verif.Props.C04_lcn_nonneg_partial`
- `Verif.Props.C05_usa_roundtrip`
- `Verif.Props.C05_accepted_contents`
- `Verif.Props.C06_torn_rejected`
- `Verif.Props.C07_accepts_iff`
- `Verif.Props.C07_accepted_sane`
- `Verif.Props.C08_attributes_in_bounds`
- `Verif.Props.C08_parts_inside`
- `Verif.Props.C09_attributes_complete`
- `Verif.Props.C09_attributes_complete_no_marker`
- `Verif.Props.C10_slack_partition`
- `Verif.Props.C10_no_slack`
- `Verif.Props.C11_runs_sound`
- `Verif.Props.C11_no_runs_no_size`
- `Verif.Props.C11_single_empty_extent`
- `Verif.Props.C11_data_size`
- `Verif.Props.C11_runs_complete`
- `Verif.Props.C11_disconnected_raises`
- `Verif.Props.C11_order_independent`
- `Verif.Props.C11_none_iff`
- `Verif.Props.C11_empty_extent_order_matters`
- `Verif.Props.C12_read_exact`
- `Verif.Props.C12_read_succeeds`
- `Verif.Props.C13_explicit_size_exceeds`
- `Verif.Props.C13_read_in_file_partial`
- `Verif.Props.C14_split_differs`
- `Verif.Props.C14_split_read_partial`
- `Verif.Props.C15_tell_history_partial`
- `Verif.Props.C15_failed_read_moves`
- `Verif.Props.C16_lookup_iff`
- `Verif.Props.C16_sequence_number_honoured`
- `Verif.Props.C16_other_sequence_refused`
- `Verif.Props.C17_lookup_total`
- `Verif.Props.C17_children`
- `Verif.Props.C18_paths_terminate`
- `Verif.Props.C19_path`
- `Verif.Props.C19_one_path_per_name`
- `Verif.Props.C19_failure`
- `Verif.Props.C20_found_by_path_partial`
- `Verif.Props.C20_not_found`
- `Verif.Props.C20_deleted_directory_found`
- `Verif.Props.C21_reported_iff_partial`
- `Verif.Props.C21_entries_inside_partial`
- `Verif.Props.C21_cut_name_reported`
- `Verif.Props.C21_recognizable_name`
- `Verif.Props.C21_last_name`
- `Verif.Props.C22_sound`
- `Verif.Props.C22_truncated_name_accepted`
- `Verif.Props.C24_roundtrip`
- `Verif.Props.C25_rejected_iff`
- `Verif.Props.C25_total`
- `Verif.Props.C25_restored`
- `Verif.Props.C25_roundtrip`
- `Verif.Props.C25_buffers`
- `Verif.Props.C26_error_partial`
- `Verif.Props.C27_text`
- `Verif.Props.C27_injective`
- `Verif.Props.C28_sound`
- `Verif.Props.C29_nothing_missed`
- `Verif.Props.C29_exact`
- `Verif.Props.C29_large_record_missed`
- `Verif.Props.C30_reasons`
- `Verif.Props.C30_sources`
- `Verif.Props.C31_accepted`
- `Verif.Props.C31_extents`
- `Verif.Props.C32_meaning`
- `Verif.Props.C32_roundtrip`
- `Verif.Props.C32_injective`
- `Verif.Props.C32_position_roundtrip`
- `Verif.Props.C33_rejected_iff`
- `Verif.Props.C33_restored`
- `Verif.Props.C33_checksum`
- `Verif.Props.C33_roundtrip`
- `Verif.Props.C33_torn`
- `Verif.Props.C33_checksum_roundtrip`
- `Verif.Props.C34_valid`
- `Verif.Props.C34_terminates`
- `Verif.Props.C34_complete`
- `Verif.Props.C34_complete_single_lap`
- `Verif.Props.C34_restart_areas`
- `Verif.Props.C34_too_large`
- `Verif.Props.C35_example`
- `Verif.Props.C35_unprepared_writes_original`
- `Verif.Props.C36_latest_copy`
- `Verif.Props.C36_no_copy`
- `Verif.Props.C36_exhaustive`
- `Verif.Props.C36_example`
- `Verif.Props.C37_data`
- `Verif.Props.C37_length`
- `Verif.Props.C38_valid_page_used_partial`
- `Verif.Props.C39_redo_undo_partial`
- `Verif.Props.C39_inside`
- `Verif.Props.C39_lcns`
- `Verif.Props.C40_names`
- `Verif.Props.C41_selected`
- `Verif.Props.C41_sectors`
- `Verif.Props.C41_no_wrong_sector`
- `Verif.Props.C41_outside`
- `Verif.Props.C41_overlay`
- `Verif.Props.C41_newer`
- `Verif.Props.C41_unused`
- `Verif.Props.C41_volume`
- `Verif.Props.C42_sound`
- `Verif.Props.C42_complete`
- `Verif.Props.C42_exact`
- `Verif.Props.C42_split`
- `Verif.Props.C42_stop`
- `Verif.Props.C43_last_block_partial`
- `Verif.Props.C43_aligned_partial`
- `Verif.Props.C43_rest_partial`
- `Verif.Props.C43_beyond_size`
- `Verif.Props.C44_open_partial`
- `Verif.Props.C44_select_partial`
- `Verif.Props.C45_load`
- `Verif.Props.C45_unique`
- `Verif.Props.C45_table`
- `Verif.Props.C46_accepted_consistent_partial`
- `Verif.Props.C46_header_damage_detected`
- `Verif.Props.C46_unordered_accepted`
- `Verif.Props.C47_fallback`
- `Verif.Props.C47_last_sector_backup`
- `Verif.Props.C48_partitions_exact`
- `Verif.Props.C48_accepted_header_lists`
- `Verif.Props.C49_primary_partitions`
- `Verif.Props.C49_walk_terminates`
- `Verif.Props.C49_logical_partitions_partial`
- `Verif.Props.C50_accepts_iff`
- `Verif.Props.C50_sectors_per_cluster`
- `Verif.Props.C50_bytes_per_sector`
- `Verif.Props.C50_record_sizes`
- `Verif.Props.C50_geometry_partial`
- `Verif.Props.C51_entries`
- `Verif.Props.C51_header_iff`
- `Verif.Props.C52_roundtrip`
- `Verif.Props.C52_lxattrb`
- `Verif.Props.C52_times`
- `Verif.Props.C53_accepted`
- `Verif.Props.C53_type`
- `Verif.Props.C53_layout`
- `Verif.Props.C54_errors`
- `Verif.Props.C54_type_error`
- `Verif.Props.C54_rejected_partial`
- `Verif.Props.C55_entry`
- `Verif.Props.C55_written`
- `Verif.Props.C55_refused`
- `Verif.Props.C56_terminates`
- `Verif.Props.C56_followed`
- `Verif.Props.C56_error`
- `Verif.Props.C56_clusters`
- `Verif.Props.C57_opened`
- `Verif.Props.C58_value`
- `Verif.Props.C58_detects`
- `Verif.Props.C58_not_attached`
- `Verif.Props.C59_accepted`
- `Verif.Props.C59_parsed`
- `Verif.Props.C59_raw`
- `Verif.Props.C59_roundtrip`
- `Verif.Props.C60_long_name`
- `Verif.Props.C60_written`
- `Verif.Props.C60_deleted_unchecked`
- `Verif.Props.C61_files`
- `Verif.Props.C61_count`
- `Verif.Props.C62_date`
- `Verif.Props.C62_time`
- `Verif.Props.C63_terminates`
- `Verif.Props.C63_no_loop_partial`
- `Verif.Props.C63_orphan_entered_again`
- `Verif.Props.C64_aborted`
- `Verif.Props.C64_ends_partial`
- `Verif.Props.ExFAT.C65_accepted`
- `Verif.Props.ExFAT.C65_layout`
- `Verif.Props.ExFAT.C65_lookup`
- `Verif.Props.ExFAT.C66_entry_set`
- `Verif.Props.ExFAT.C66_boot_region_partial`
- `Verif.Props.ExFAT.C66_sector_size_undetected`
- `Verif.Props.ExFAT.C67_backup_512`
- `Verif.Props.ExFAT.C67_backup_4096_partial`
- `Verif.Props.ExFAT.C67_used`
- `Verif.Props.ExFAT.C67_other_sector_sizes`
- `Verif.Props.ExFAT.C67_backup_4096_hidden`
- `Verif.Props.ExFAT.C68_entry`
- `Verif.Props.ExFAT.C68_terminates`
- `Verif.Props.ExFAT.C68_followed`
- `Verif.Props.ExFAT.C68_error`
- `Verif.Props.ExFAT.C68_clusters`
- `Verif.Props.ExFAT.C68_contiguous`
- `Verif.Props.ExFAT.C68_contiguous_valid`
- `Verif.Props.ExFAT.C68_read`
- `Verif.Props.ExFAT.C68_opened`
- `Verif.Props.ExFAT.C69_listing`
- `Verif.Props.ExFAT.C69_set`
- `Verif.Props.ExFAT.C69_no_failure`
- `Verif.Props.ExFAT.C70_cut_name`
- `Verif.Props.ExFAT.C70_names_partial`
- `Verif.Props.ExFAT.C70_orphan`
- `Verif.Props.ExFAT.C71_bit`
- `Verif.Props.ExFAT.C71_short`
- `Verif.Props.ExFAT.C72_terminates`
- `Verif.Props.ExFAT.C72_no_loop_partial`
- `Verif.Props.ExFAT.C72_orphan_entered_again`
- `Verif.Props.ExFAT.C73_ends_partial`
- `Verif.Props.ExFAT.C73_aborted`
- `Verif.Props.C75_file_records`
- `Verif.Props.C75_agrees_with_lookup`
- `Verif.Props.C76_example`
- `Verif.Props.C76_fast_pages`
- `Verif.Props.ExFAT.C79_timestamp`
- `Verif.Props.ExFAT.C79_found`
- `Verif.Props.ExFAT.C80_sound`
- `Verif.Props.ExFAT.C80_complete`
- `Verif.Props.ExFAT.C80_newest`
- `Verif.Props.ExFAT.C80_orphans`
- `Verif.Props.ExFAT.C80_orphans_complete`
- `Verif.Props.C81_sound`
- `Verif.Props.C81_complete`
- `Verif.Props.C81_orphans`
- `Verif.Props.C81_orphans_complete`
- `Verif.Props.C82_open_sound`
- `Verif.Props.C83_first_record_elsewhere`
- `Verif.Props.C83_first_record_partial`
- `Verif.Props.C84_exceptions_partial`
- `Verif.Props.C84_overflow_error`
- `Verif.Props.C84_value_error`
- `Verif.Props.C84_attribute_error`
- `Verif.Props.C84_struct_error`
- `Verif.Props.C85_open_complete`
- `Verif.Props.C86_merged`
- `Verif.Props.C86_unreadable`
- `Verif.Props.C87_agrees_partial`
- `Verif.Props.C87_gap_merged`
- `Verif.Props.C87_first_extent_lost`
- `Verif.Props.C88_sound`
- `Verif.Props.C88_apart`
- `Verif.Props.C88_complete`
- `Verif.Props.C89_guess`
- `Verif.Props.C90_again_partial`
- `Verif.Props.C90_second_call`
- `Verif.Props.C90_kept_after_error`
- `Verif.Props.C91_lines`
- `Verif.Props.C91_empty`
- `Verif.Props.C91_injective`
- `Verif.Props.C92_csv_round_trip`
- `Verif.Props.C92_names`
- `Verif.Props.C92_encoding`
- `Verif.Props.C93_text`
- `Verif.Props.C93_order`
- `Verif.Props.C93_filetime`
- `Verif.Props.C93_guid_time`
- `Verif.Props.C94_standard_information`
- `Verif.Props.C94_extra_flags`
- `Verif.Props.C94_standard_information_extension`
- `Verif.Props.C94_duplicated_information`
- `Verif.Props.C94_file_name`
- `Verif.Props.C94_object_id`
- `Verif.Props.C94_object_id_other`
- `Verif.Props.C94_index_entry`
- `Verif.Props.C94_index_root`
- `Verif.Props.C94_reparse_point`
- `Verif.Props.C94_reparse_guid_of_record`
- `Verif.Props.C94_ea_information`
- `Verif.Props.C94_volume_information`
- `Verif.Props.C94_last_compacted_size`
- `Verif.Props.C96_slack`
- `Verif.Props.C97_usn_table`
- `Verif.Props.C97_complete_partial`
- `Verif.Props.C97_sequence_number`
- `Verif.Props.C97_one_record_stops`
- `Verif.Props.C98_mft_table`
- `Verif.Props.C98_complete_partial`
- `Verif.Props.C98_record_left_out`
- `Verif.Props.C98_listing_stops`
- `Verif.Props.C99_parts`
- `Verif.Props.C99_index_table`
- `Verif.Props.C99_complete_partial`
- `Verif.Props.C99_parent_partial`
- `Verif.Props.C99_wrong_parent`
- `Verif.Props.C100_report`
- `Verif.Props.C100_lossless`
- `Verif.Props.C100_encodable`
- `Verif.Props.C101_table`
- `Verif.Props.C101_order`
- `Verif.Props.C102_table`
- `Verif.Props.C102_sound`
- `Verif.Props.C102_complete`
- `Verif.Props.ExFAT.C103_table`
- `Verif.Props.ExFAT.C103_refused`
- `Verif.Props.ExFAT.C103_sound`
- `Verif.Props.ExFAT.C103_complete`
- `Verif.Props.ExFAT.C104_exfat`
- `Verif.Props.ExFAT.C104_fat`
- `Verif.Props.Mount.C105_read`
- `Verif.Props.Mount.C105_end`
- `Verif.Props.Mount.C105_lookup`
- `Verif.Props.Mount.C105_other_names`
- `Verif.Props.Mount.C105_directory`
- `Verif.Props.Mount.C106_fill`
- `Verif.Props.Mount.C106_same`
- `Verif.Props.Mount.C107_shadows`
- `Verif.Props.Mount.C107_bad_slot`
- `Verif.Props.Mount.C107_list`
- `Verif.Props.Mount.C107_disabled`
- `Verif.Props.Mount.C107_invalid`
- `Verif.Props.Mount.C107_not_found`
- `Verif.Props.Mount.C107_selected`
- `Verif.Props.C108_report`
- `Verif.Props.C108_complete_partial`
- `Verif.Props.C108_rejected`
- `Verif.Props.C108_determined`
- `Verif.Props.C108_deleted`
- `Verif.Props.C108_bad_data`
- `Verif.Props.C108_negative_target`
- `Verif.Props.C108_deleted_left_out`
- `Verif.Props.C108_one_record_stops`
- `Verif.Props.AllMft.C109_finished`
- `Verif.Props.AllMft.C109_stopped`
- `Verif.Props.AllMft.C109_complete`
- `Verif.Props.AllMft.C109_disabled`
- `Verif.Props.AllMft.C109_parts`
- `Verif.Props.Programs.C110_others`
- `Verif.Props.Programs.C110_others_fat`
- `Verif.Props.Programs.C110_usage`
- `Verif.Props.Programs.C110_usage_fat`
- `Verif.Props.Programs.C110_unopened`
- `Verif.Props.Programs.C110_unopened_fat`
- `Verif.Props.Programs.C110_contents`
- `Verif.Props.Programs.C110_contents_fat`
- `Verif.Props.Programs.C110_same_file`
- `Verif.Props.FatMarks.C111_allocated`
- `Verif.Props.FatMarks.C111_media`
- `Verif.Props.FatMarks.C111_marks`
- `Verif.Props.FatMarks.C111_no_marks`
- `Verif.Props.FatMarks.C111_windows`
- `Verif.Props.BootFields.C112_fat16`
- `Verif.Props.BootFields.C112_fat32`
- `Verif.Props.BootFields.C112_info`
- `Verif.Props.BootFieldsEx.C113_fields`
- `Verif.Props.BootFieldsEx.C113_extended_elsewhere`
- `Verif.Props.BootFieldsEx.C113_extended_partial`
- `Verif.Props.BootFieldsEx.C113_oem_elsewhere`
- `Verif.Props.BootFieldsEx.C113_oem_in_reserved`
- `Verif.Props.BootFieldsEx.C113_extended_refuted`
- `Verif.Props.BootFieldsEx.C113_oem_ignored`
- `Verif.Props.FatText.C114_text`
- `Verif.Props.FatText.C114_injective`
- `Verif.Props.FatText.C114_unusual`
- `Verif.Props.ShadowBlocks.C115_start`
- `Verif.Props.ShadowBlocks.C115_block`
- `Verif.Props.ShadowBlocks.C115_described`
- `Verif.Props.ShadowBlocks.C115_located`
- `Verif.Props.ShadowBlocks.C115_items`
- `Verif.Props.ShadowBlocks.C115_locations`
- `Verif.Props.ShadowBlocks.C115_application`
- `Verif.Props.Names16.C116_label`
- `Verif.Props.Names16.C116_label_stored`
- `Verif.Props.Names16.C116_file_name`
- `Verif.Props.Names16.C116_file_names_differ`
- `Verif.Props.Names16.C116_stream_name`
- `Verif.Props.Names16.C116_log_name`
- `Verif.Props.Names16.C116_partition_name`
- `Verif.Props.Names16.C116_partition_name_stored`
- `Verif.Props.LogFields.C117_restart_area`
- `Verif.Props.LogFields.C117_client`
- `Verif.Props.LogFields.C117_clients`
- `Verif.Props.LogFields.C117_page`
- `Verif.Props.LogFields.C117_record`
- `Verif.Props.LogFields.C117_ntfs_area`
- `Verif.Props.LogFields.C117_ntfs_area_cut`
- `Verif.Props.LogFields.C117_open_attribute1`
- `Verif.Props.LogFields.C117_open_attribute0`
- `Verif.Props.JournalFields.C118_change`
- `Verif.Props.JournalFields.C118_ranges`
- `Verif.Props.JournalFields.C118_header`
- `Verif.Props.JournalFields.C118_entry`
- `Verif.Props.JournalFields.C118_sector`
- `Verif.Props.AllMft.C119_accepted`
- `Verif.Props.AllMft.C119_complete`
- `Verif.Props.AllMft.C119_all_or_nothing`
- `Verif.Props.Headers.C120_boot_sector`
- `Verif.Props.Headers.C120_boot_sizes`
- `Verif.Props.Headers.C120_segment`
- `Verif.Props.Headers.C120_index_buffer`
- `Verif.Props.Headers.C120_mbr`
- `Verif.Props.Headers.C120_exfat_media`
- `Verif.Props.C121_text`
- `Verif.Props.C121_no_text`
- `Verif.Props.C121_lengths_partial`
- `Verif.Props.C121_readable`
- `Verif.Props.C121_equal`
- `Verif.Props.C121_readable_without_text`
- `Verif.Props.C121_zero_offset`
- `Verif.Props.C121_cut`
- `Verif.Props.C121_equal_shown_different`
- `Verif.Props.C122_errors`
- `Verif.Props.C122_declared_partial`
- `Verif.Props.C122_empty`
- `Verif.Props.ExFAT.C123_directory`
- `Verif.Props.ExFAT.C123_declared_partial`
- `Verif.Props.ExFAT.C123_cut_region`
- `Verif.Props.ExFAT.C123_cut`
- `Verif.Props.C124_header_errors`
- `Verif.Props.C124_header_partial`
- `Verif.Props.C124_partitions_errors`
- `Verif.Props.C124_mbr`
- `Verif.Props.C124_opening`
- `Verif.Props.C125_opened_iff`
- `Verif.Props.C125_errors`
- `Verif.Props.C125_declared`
- `Verif.Props.C125_attribute_error`
- `Verif.Props.C125_struct_error`
- `Verif.Props.C126_opened_iff`
- `Verif.Props.C126_errors`
- `Verif.Props.C126_offset`
- `Verif.Props.C126_table`
- `Verif.Props.C127_open`
- `Verif.Props.C127_select`
- `Verif.Props.C127_declared_partial`
- `Verif.Props.C127_overflow`
- `Verif.Props.C127_read`
- `Verif.Props.Printed.C128_standard_information`
- `Verif.Props.Printed.C128_standard_information_short`
- `Verif.Props.Printed.C128_file_name`
- `Verif.Props.Printed.C128_file_name_short`
- `Verif.Props.Printed.C128_volume_information`
- `Verif.Props.Printed.C128_reparse_point`
- `Verif.Props.Printed.C128_ea_information`
- `Verif.Props.Printed.C128_short`
- `Verif.Props.Printed.C128_lengths`
- `Verif.Props.Printed.C128_object_id`
- `Verif.Props.Printed.C128_attribute_list`
- `Verif.Props.Printed.C128_utf8`
- `Verif.Props.Printed.C128_ea`
- `Verif.Props.Printed.C128_index_root`
- `Verif.Props.Printed.C128_index_root_error`
- `Verif.Props.Printed.C128_index_allocation`
- `Verif.Props.Printed.C128_wsl`
- `Verif.Props.Printed.C128_standard_readable`
- `Verif.Props.Printed.C128_file_name_readable`
- `Verif.Props.Printed.C128_null_printed`
- `Verif.Props.Reselect.C129_attributes`
- `Verif.Props.Reselect.C129_unselected`
- `Verif.Props.Reselect.C130_not_found_partial`
- `Verif.Props.Reselect.C130_attribute_error`
- `Verif.Props.C131_again_partial`
- `Verif.Props.C131_other_header`
- `Verif.Props.C131_found_later`
- `Verif.Props.C133_later`
- `Verif.Props.C133_before`
- `Verif.Props.C133_passes_partial`
- `Verif.Props.C133_doubled`
- `Verif.Props.Shared.C134_files`
- `Verif.Props.Shared.C134_same_calls`
- `Verif.Props.Shared.C134_volume_moved`
- `Verif.Props.Shared.C134_records`
- `Verif.Props.Shared.C134_lookup`
- `Verif.Props.SharedShadow.C134_shadows`

## Axioms: propext, Quot.sound (77 theorems)

- `Verif.Props.C15_seek_exact`
- `Verif.Props.C16_deleted_sequence`
- `Verif.Props.C22_roundtrip`
- `Verif.Props.C22_roundtrip_unpadded`
- `Verif.Props.C23_sound_partial`
- `Verif.Props.C23_complete`
- `Verif.Props.C23_entry_outside_accepted`
- `Verif.Props.C23_struct_error`
- `Verif.Props.C23_attribute`
- `Verif.Props.C23_slack`
- `Verif.Props.C24_sound`
- `Verif.Props.C26_exact_partial`
- `Verif.Props.C26_exact_even_partial`
- `Verif.Props.C26_monotone_partial`
- `Verif.Props.C28_rejections`
- `Verif.Props.C31_name`
- `Verif.Props.C31_fields`
- `Verif.Props.C35_original_unchanged`
- `Verif.Props.C35_reads_overlay`
- `Verif.Props.C35_parse_restores`
- `Verif.Props.C38_older_page_used`
- `Verif.Props.C40_names_sound`
- `Verif.Props.C40_references`
- `Verif.Props.C41_overlay_lost_at_null_target`
- `Verif.Props.C42_rest`
- `Verif.Props.C42_seek`
- `Verif.Props.C44_result_unique`
- `Verif.Props.C44_endless`
- `Verif.Props.C44_cyclic_chain`
- `Verif.Props.C46_array_damage_detected`
- `Verif.Props.C49_zero_start_drops`
- `Verif.Props.C51_sector_size`
- `Verif.Props.C51_timestamp`
- `Verif.Props.C51_short_sector_accepted`
- `Verif.Props.C52_short_record_dropped`
- `Verif.Props.C52_sound`
- `Verif.Props.C56_reserved`
- `Verif.Props.C57_read`
- `Verif.Props.C57_size_cuts`
- `Verif.Props.C57_length`
- `Verif.Props.C61_refused`
- `Verif.Props.ExFAT.C67_reported`
- `Verif.Props.ExFAT.C67_proceeds`
- `Verif.Props.ExFAT.C68_reserved`
- `Verif.Props.ExFAT.C69_refused`
- `Verif.Props.ExFAT.C71_bitmap`
- `Verif.Props.ExFAT.C71_none`
- `Verif.Props.ExFAT.C71_opened`
- `Verif.Props.C77_open_attributes`
- `Verif.Props.C77_example`
- `Verif.Props.C78_dumps_partial`
- `Verif.Props.C78_dumps_do_not_match`
- `Verif.Props.C94_short`
- `Verif.Props.C95_timestamps`
- `Verif.Props.C95_agrees`
- `Verif.Props.Mount.C105_history`
- `Verif.Props.Mount.C105_read_only`
- `Verif.Props.Mount.C105_nothing_else`
- `Verif.Props.FatMarks.C111_boot`
- `Verif.Props.BootFields.C112_info_refused`
- `Verif.Props.Names16.C116_label_injective`
- `Verif.Props.Names16.C116_stream_found`
- `Verif.Props.C122_struct_error`
- `Verif.Props.C122_second_page_not_tried`
- `Verif.Props.C124_overflow`
- `Verif.Props.C126_type_error`
- `Verif.Props.C127_not_implemented`
- `Verif.Props.C127_read_overflow`
- `Verif.Props.Reselect.C129_selected`
- `Verif.Props.Reselect.C129_history`
- `Verif.Props.Reselect.C129_answer`
- `Verif.Props.Reselect.C130_position`
- `Verif.Props.Reselect.C130_other_size`
- `Verif.Props.LogAgain.C132_again_partial`
- `Verif.Props.LogAgain.C132_left_items`
- `Verif.Props.LogAgain.C132_mixed`
- `Verif.Props.LogAgain.C132_left`
