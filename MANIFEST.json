{
 "claims": [
  {
   "property": "C01",
   "status": "proved",
   "theorems": [
    "Verif.Props.C01_encode_decode",
    "Verif.Props.C01_decode_encode",
    "Verif.Props.C01_decode_range",
    "Verif.Props.C01_injective"
   ],
   "note": ""
  },
  {
   "property": "C02",
   "status": "proved",
   "theorems": [
    "Verif.Props.C02_mapping_pairs_roundtrip"
   ],
   "note": ""
  },
  {
   "property": "C03",
   "status": "proved",
   "theorems": [
    "Verif.Props.C03_mapping_pairs_sound",
    "Verif.Props.C03_mapping_pairs_only_exception",
    "Verif.Props.C03_lengths_positive",
    "Verif.Props.C03_zero_only_first"
   ],
   "note": ""
  },
  {
   "property": "C04",
   "status": "partial",
   "theorems": [
    "Verif.Props.C04_negative_lcn_accepted",
    "Verif.Props.C04_lcn_nonneg_partial"
   ],
   "note": "The full statement (decoded LCNs are never negative) is false of the code: C04_negative_lcn_accepted is a machine-checked counterexample. C04_lcn_nonneg_partial is what holds."
  },
  {
   "property": "C05",
   "status": "proved",
   "theorems": [
    "Verif.Props.C05_usa_roundtrip",
    "Verif.Props.C05_accepted_contents"
   ],
   "note": ""
  },
  {
   "property": "C06",
   "status": "proved",
   "theorems": [
    "Verif.Props.C06_torn_rejected"
   ],
   "note": ""
  },
  {
   "property": "C07",
   "status": "proved",
   "theorems": [
    "Verif.Props.C07_accepts_iff",
    "Verif.Props.C07_accepted_sane"
   ],
   "note": ""
  },
  {
   "property": "C08",
   "status": "proved",
   "theorems": [
    "Verif.Props.C08_attributes_in_bounds",
    "Verif.Props.C08_parts_inside"
   ],
   "note": ""
  },
  {
   "property": "C09",
   "status": "proved",
   "theorems": [
    "Verif.Props.C09_attributes_complete",
    "Verif.Props.C09_attributes_complete_no_marker"
   ],
   "note": ""
  },
  {
   "property": "C10",
   "status": "proved",
   "theorems": [
    "Verif.Props.C10_slack_partition",
    "Verif.Props.C10_no_slack"
   ],
   "note": ""
  },
  {
   "property": "C11",
   "status": "proved",
   "theorems": [
    "Verif.Props.C11_runs_sound",
    "Verif.Props.C11_no_runs_no_size",
    "Verif.Props.C11_single_empty_extent",
    "Verif.Props.C11_data_size",
    "Verif.Props.C11_runs_complete",
    "Verif.Props.C11_disconnected_raises",
    "Verif.Props.C11_order_independent",
    "Verif.Props.C11_none_iff",
    "Verif.Props.C11_empty_extent_order_matters"
   ],
   "note": ""
  },
  {
   "property": "C12",
   "status": "proved",
   "theorems": [
    "Verif.Props.C12_read_exact",
    "Verif.Props.C12_read_succeeds"
   ],
   "note": ""
  },
  {
   "property": "C13",
   "status": "partial",
   "theorems": [
    "Verif.Props.C13_explicit_size_exceeds",
    "Verif.Props.C13_read_in_file_partial"
   ],
   "note": "False for explicit sizes (C13_explicit_size_exceeds). Proved: read() and negative sizes, sizes inside the file, files that fill their last cluster; in all cases the read ends with the cluster in which the file ends."
  },
  {
   "property": "C14",
   "status": "partial",
   "theorems": [
    "Verif.Props.C14_split_differs",
    "Verif.Props.C14_split_read_partial"
   ],
   "note": "False as a consequence of C13 (C14_split_differs). Proved for all reads except those whose first part ends at or beyond the end of a file that does not fill its last cluster."
  },
  {
   "property": "C15",
   "status": "partial",
   "theorems": [
    "Verif.Props.C15_seek_exact",
    "Verif.Props.C15_tell_history_partial",
    "Verif.Props.C15_failed_read_moves"
   ],
   "note": "seek is exact and failure-atomic (C15_seek_exact, full). The history part holds for histories without failing reads (C15_tell_history_partial); a failing read moves the position (C15_failed_read_moves)."
  },
  {
   "property": "C16",
   "status": "proved",
   "theorems": [
    "Verif.Props.C16_lookup_iff",
    "Verif.Props.C16_sequence_number_honoured",
    "Verif.Props.C16_other_sequence_refused",
    "Verif.Props.C16_deleted_sequence"
   ],
   "note": ""
  },
  {
   "property": "C17",
   "status": "proved",
   "theorems": [
    "Verif.Props.C17_lookup_total",
    "Verif.Props.C17_children"
   ],
   "note": ""
  },
  {
   "property": "C18",
   "status": "proved",
   "theorems": [
    "Verif.Props.C18_paths_terminate"
   ],
   "note": ""
  },
  {
   "property": "C19",
   "status": "proved",
   "theorems": [
    "Verif.Props.C19_path",
    "Verif.Props.C19_one_path_per_name",
    "Verif.Props.C19_failure"
   ],
   "note": ""
  },
  {
   "property": "C20",
   "status": "partial",
   "theorems": [
    "Verif.Props.C20_found_by_path_partial",
    "Verif.Props.C20_not_found",
    "Verif.Props.C20_deleted_directory_found"
   ],
   "note": "Proved: the record found is in use, carries the last component as a name, and the records along its parent references carry the other components up to the root; C20_not_found is the converse. False of the code: the records in between need not be in use (C20_deleted_directory_found)."
  },
  {
   "property": "C21",
   "status": "partial",
   "theorems": [
    "Verif.Props.C21_reported_iff_partial",
    "Verif.Props.C21_entries_inside_partial",
    "Verif.Props.C21_cut_name_reported",
    "Verif.Props.C21_recognizable_name",
    "Verif.Props.C21_last_name"
   ],
   "note": "Proved: carving terminates and reports exactly the plausible entries (four timestamps within the bounds, plausible name) that do not overlap an earlier one, and their fixed parts are inside the buffer; and the recognizable part of a name that is reported is the last sequence of at least five recognizable characters before the first entry, if there is one (C21_last_name). False of the code: the name may extend beyond the end of the buffer and is then cut (C21_cut_name_reported)."
  },
  {
   "property": "C22",
   "status": "partial",
   "theorems": [
    "Verif.Props.C22_roundtrip",
    "Verif.Props.C22_roundtrip_unpadded",
    "Verif.Props.C22_sound",
    "Verif.Props.C22_truncated_name_accepted"
   ],
   "note": "Proved: total, no exception, round trip for all stored lists, and for all byte strings the entries are non-overlapping places whose headers lie inside the value. False: the name of the last entry may stick out of the value and is then cut (C22_truncated_name_accepted)."
  },
  {
   "property": "C23",
   "status": "partial",
   "theorems": [
    "Verif.Props.C23_sound_partial",
    "Verif.Props.C23_complete",
    "Verif.Props.C23_entry_outside_accepted",
    "Verif.Props.C23_struct_error",
    "Verif.Props.C23_attribute",
    "Verif.Props.C23_slack"
   ],
   "note": "Proved: termination, exact listing of well-formed nodes, and soundness of places for all byte strings. False: an entry may be declared larger than the rest of the node (C23_entry_outside_accepted) and struct.error can be raised (C23_struct_error)."
  },
  {
   "property": "C24",
   "status": "proved",
   "theorems": [
    "Verif.Props.C24_roundtrip",
    "Verif.Props.C24_sound"
   ],
   "note": ""
  },
  {
   "property": "C25",
   "status": "proved",
   "theorems": [
    "Verif.Props.C25_rejected_iff",
    "Verif.Props.C25_total",
    "Verif.Props.C25_restored",
    "Verif.Props.C25_roundtrip",
    "Verif.Props.C25_buffers"
   ],
   "note": ""
  },
  {
   "property": "C26",
   "status": "partial",
   "theorems": [
    "Verif.Props.C26_not_exact",
    "Verif.Props.C26_not_floor",
    "Verif.Props.C26_exact_partial",
    "Verif.Props.C26_exact_even_partial",
    "Verif.Props.C26_error_partial",
    "Verif.Props.C26_monotone_partial"
   ],
   "note": "False of the code, which divides in floating point (C26_not_exact, C26_not_floor). Proved: exactness for whole microseconds below 2^53 and even ones below 2^54, the error bound below 10*2^54, and monotonicity for all values."
  },
  {
   "property": "C27",
   "status": "proved",
   "theorems": [
    "Verif.Props.C27_text",
    "Verif.Props.C27_injective"
   ],
   "note": ""
  },
  {
   "property": "C28",
   "status": "proved",
   "theorems": [
    "Verif.Props.C28_rejections",
    "Verif.Props.C28_sound"
   ],
   "note": ""
  },
  {
   "property": "C29",
   "status": "proved",
   "theorems": [
    "Verif.Props.C29_nothing_missed",
    "Verif.Props.C29_exact",
    "Verif.Props.C29_large_record_missed"
   ],
   "note": ""
  },
  {
   "property": "C30",
   "status": "proved",
   "theorems": [
    "Verif.Props.C30_reasons",
    "Verif.Props.C30_sources"
   ],
   "note": ""
  },
  {
   "property": "C31",
   "status": "proved",
   "theorems": [
    "Verif.Props.C31_accepted",
    "Verif.Props.C31_refused",
    "Verif.Props.C31_name",
    "Verif.Props.C31_fields",
    "Verif.Props.C31_extents"
   ],
   "note": ""
  },
  {
   "property": "C32",
   "status": "proved",
   "theorems": [
    "Verif.Props.C32_meaning",
    "Verif.Props.C32_roundtrip",
    "Verif.Props.C32_injective",
    "Verif.Props.C32_position_roundtrip",
    "Verif.Props.C32_position_too_large"
   ],
   "note": ""
  },
  {
   "property": "C33",
   "status": "proved",
   "theorems": [
    "Verif.Props.C33_rejected_iff",
    "Verif.Props.C33_restored",
    "Verif.Props.C33_checksum",
    "Verif.Props.C33_roundtrip",
    "Verif.Props.C33_torn",
    "Verif.Props.C33_checksum_roundtrip"
   ],
   "note": ""
  },
  {
   "property": "C34",
   "status": "proved",
   "theorems": [
    "Verif.Props.C34_valid",
    "Verif.Props.C34_terminates",
    "Verif.Props.C34_complete",
    "Verif.Props.C34_complete_single_lap",
    "Verif.Props.C34_restart_areas",
    "Verif.Props.C34_too_large"
   ],
   "note": ""
  },
  {
   "property": "C35",
   "status": "proved",
   "theorems": [
    "Verif.Props.C35_original_unchanged",
    "Verif.Props.C35_reads_overlay",
    "Verif.Props.C35_prepare",
    "Verif.Props.C35_parse_restores",
    "Verif.Props.C35_example",
    "Verif.Props.C35_unprepared_writes_original"
   ],
   "note": ""
  },
  {
   "property": "C36",
   "status": "proved",
   "theorems": [
    "Verif.Props.C36_latest_copy",
    "Verif.Props.C36_no_copy",
    "Verif.Props.C36_exhaustive",
    "Verif.Props.C36_example"
   ],
   "note": ""
  },
  {
   "property": "C37",
   "status": "proved",
   "theorems": [
    "Verif.Props.C37_data",
    "Verif.Props.C37_length"
   ],
   "note": ""
  },
  {
   "property": "C38",
   "status": "partial",
   "theorems": [
    "Verif.Props.C38_valid_page_used_partial",
    "Verif.Props.C38_older_page_used"
   ],
   "note": "False as stated: LSNs are not compared and the first valid restart page is used (C38_older_page_used). Proved: the page used passes all checks, and the second page is used only when the first one is not valid (C38_valid_page_used_partial)."
  },
  {
   "property": "C39",
   "status": "partial",
   "theorems": [
    "Verif.Props.C39_redo_undo_partial",
    "Verif.Props.C39_inside",
    "Verif.Props.C39_lcns",
    "Verif.Props.C39_cut_or_header_accepted"
   ],
   "note": "False as stated: C39_cut_or_header_accepted shows that redo data reaching beyond the end of the record is silently cut and that the offset 0 gives header bytes. Proved: the exact result for every record (C39_redo_undo_partial), exactness for records whose recorded places are inside (C39_inside), and the LCN list (C39_lcns)."
  },
  {
   "property": "C40",
   "status": "proved",
   "theorems": [
    "Verif.Props.C40_names",
    "Verif.Props.C40_names_sound",
    "Verif.Props.C40_references"
   ],
   "note": ""
  },
  {
   "property": "C41",
   "status": "proved",
   "theorems": [
    "Verif.Props.C41_selected",
    "Verif.Props.C41_sectors",
    "Verif.Props.C41_no_wrong_sector",
    "Verif.Props.C41_outside",
    "Verif.Props.C41_overlay",
    "Verif.Props.C41_copy",
    "Verif.Props.C41_forwarded",
    "Verif.Props.C41_newer",
    "Verif.Props.C41_unused",
    "Verif.Props.C41_volume",
    "Verif.Props.C41_overlay_lost_at_null_target"
   ],
   "note": ""
  },
  {
   "property": "C42",
   "status": "proved",
   "theorems": [
    "Verif.Props.C42_sound",
    "Verif.Props.C42_complete",
    "Verif.Props.C42_exact",
    "Verif.Props.C42_split",
    "Verif.Props.C42_rest",
    "Verif.Props.C42_seek",
    "Verif.Props.C42_stop"
   ],
   "note": ""
  },
  {
   "property": "C43",
   "status": "partial",
   "theorems": [
    "Verif.Props.C43_last_block_partial",
    "Verif.Props.C43_aligned_partial",
    "Verif.Props.C43_rest_partial",
    "Verif.Props.C43_beyond_size"
   ],
   "note": "False as stated: C43_beyond_size gives a shadow copy of 256 bytes from which a read of 512 bytes returns 512 (the size is only compared with the start of each 16 KiB block). Proved: nothing beyond the last block and never more than asked (C43_last_block_partial), and the property itself for volume sizes that are multiples of 16 KiB and for reads of the rest."
  },
  {
   "property": "C44",
   "status": "partial",
   "theorems": [
    "Verif.Props.C44_open_partial",
    "Verif.Props.C44_select_partial",
    "Verif.Props.C44_result_unique",
    "Verif.Props.C44_endless",
    "Verif.Props.C44_cyclic_chain"
   ],
   "note": "False as stated: C44_cyclic_chain gives a volume on which the constructor never returns, and C44_endless shows that every endless chain of control blocks has this effect. Proved: opening and selecting finish when no chain of blocks is endless (C44_open_partial, C44_select_partial), and the result does not depend on the bound on the number of steps (C44_result_unique)."
  },
  {
   "property": "C45",
   "status": "proved",
   "theorems": [
    "Verif.Props.C45_load",
    "Verif.Props.C45_unique",
    "Verif.Props.C45_table"
   ],
   "note": ""
  },
  {
   "property": "C46",
   "status": "partial",
   "theorems": [
    "Verif.Props.C46_accepted_consistent_partial",
    "Verif.Props.C46_header_damage_detected",
    "Verif.Props.C46_array_damage_detected",
    "Verif.Props.C46_unordered_accepted"
   ],
   "note": "Everything in the statement is proved (C46_accepted_consistent_partial, with C46_header_damage_detected and C46_array_damage_detected) except the order of the first and last usable LBA, which the code does not check (C46_unordered_accepted)."
  },
  {
   "property": "C47",
   "status": "proved",
   "theorems": [
    "Verif.Props.C47_fallback",
    "Verif.Props.C47_last_sector_backup"
   ],
   "note": ""
  },
  {
   "property": "C48",
   "status": "proved",
   "theorems": [
    "Verif.Props.C48_partitions_exact",
    "Verif.Props.C48_accepted_header_lists"
   ],
   "note": ""
  },
  {
   "property": "C49",
   "status": "partial",
   "theorems": [
    "Verif.Props.C49_primary_partitions",
    "Verif.Props.C49_walk_terminates",
    "Verif.Props.C49_logical_partitions_partial",
    "Verif.Props.C49_zero_start_drops"
   ],
   "note": "Termination and exactness are proved for disks where no extended partition starts at LBA 0; with one that does, logical partitions found before it are dropped (C49_zero_start_drops)."
  },
  {
   "property": "C50",
   "status": "partial",
   "theorems": [
    "Verif.Props.C50_accepts_iff",
    "Verif.Props.C50_sectors_per_cluster",
    "Verif.Props.C50_bytes_per_sector",
    "Verif.Props.C50_record_sizes",
    "Verif.Props.C50_odd_geometry_accepted",
    "Verif.Props.C50_geometry_partial",
    "Verif.Props.C50_boot_code"
   ],
   "note": "Exact acceptance is proved (C50_accepts_iff); the claim that all sizes are powers of two is false of the code (C50_odd_geometry_accepted). C50_geometry_partial is what holds."
  },
  {
   "property": "C51",
   "status": "proved",
   "theorems": [
    "Verif.Props.C51_entries",
    "Verif.Props.C51_sector_size",
    "Verif.Props.C51_header_iff",
    "Verif.Props.C51_timestamp",
    "Verif.Props.C51_short_sector_accepted"
   ],
   "note": ""
  },
  {
   "property": "C52",
   "status": "proved",
   "theorems": [
    "Verif.Props.C52_roundtrip",
    "Verif.Props.C52_short_record_dropped",
    "Verif.Props.C52_sound",
    "Verif.Props.C52_lxattrb",
    "Verif.Props.C52_times"
   ],
   "note": ""
  },
  {
   "property": "C53",
   "status": "proved",
   "theorems": [
    "Verif.Props.C53_accepted",
    "Verif.Props.C53_type",
    "Verif.Props.C53_layout"
   ],
   "note": ""
  },
  {
   "property": "C54",
   "status": "partial",
   "theorems": [
    "Verif.Props.C54_errors",
    "Verif.Props.C54_type_error",
    "Verif.Props.C54_rejected_partial"
   ],
   "note": "False as stated: a boot sector without a count of sectors, or one without a 16-bit table size and without a 32-bit one or a usable sectors-per-cluster value, gives a TypeError (C54_type_error). Proved: these sectors are the only ones (C54_errors), and every other sector that is not taken gives one of the two exceptions (C54_rejected_partial)."
  },
  {
   "property": "C55",
   "status": "proved",
   "theorems": [
    "Verif.Props.C55_entry",
    "Verif.Props.C55_written",
    "Verif.Props.C55_refused"
   ],
   "note": ""
  },
  {
   "property": "C56",
   "status": "proved",
   "theorems": [
    "Verif.Props.C56_terminates",
    "Verif.Props.C56_followed",
    "Verif.Props.C56_error",
    "Verif.Props.C56_reserved",
    "Verif.Props.C56_clusters"
   ],
   "note": ""
  },
  {
   "property": "C57",
   "status": "proved",
   "theorems": [
    "Verif.Props.C57_read",
    "Verif.Props.C57_size_cuts",
    "Verif.Props.C57_length",
    "Verif.Props.C57_opened"
   ],
   "note": ""
  },
  {
   "property": "C58",
   "status": "proved",
   "theorems": [
    "Verif.Props.C58_value",
    "Verif.Props.C58_detects",
    "Verif.Props.C58_not_attached"
   ],
   "note": ""
  },
  {
   "property": "C59",
   "status": "proved",
   "theorems": [
    "Verif.Props.C59_accepted",
    "Verif.Props.C59_parsed",
    "Verif.Props.C59_raw",
    "Verif.Props.C59_roundtrip"
   ],
   "note": ""
  },
  {
   "property": "C60",
   "status": "proved",
   "theorems": [
    "Verif.Props.C60_long_name",
    "Verif.Props.C60_written",
    "Verif.Props.C60_deleted_unchecked"
   ],
   "note": ""
  },
  {
   "property": "C61",
   "status": "proved",
   "theorems": [
    "Verif.Props.C61_files",
    "Verif.Props.C61_count",
    "Verif.Props.C61_refused"
   ],
   "note": ""
  },
  {
   "property": "C62",
   "status": "proved",
   "theorems": [
    "Verif.Props.C62_date",
    "Verif.Props.C62_time"
   ],
   "note": ""
  },
  {
   "property": "C63",
   "status": "partial",
   "theorems": [
    "Verif.Props.C63_terminates",
    "Verif.Props.C63_no_loop_partial",
    "Verif.Props.C63_orphan_entered_again"
   ],
   "note": "C63_terminates is the full claim about termination, for every volume. C63_no_loop_partial: no directory is entered while it is on the path, except that an orphan directory (walked after the root) is not on its own path; C63_orphan_entered_again is a volume where such a directory is entered once more."
  },
  {
   "property": "C64",
   "status": "partial",
   "theorems": [
    "Verif.Props.C64_aborted",
    "Verif.Props.C64_ends_partial"
   ],
   "note": "The claim is false: C64_aborted is a volume with one long-name slot with an empty text whose walk ends with a TypeError. C64_ends_partial: for an opened volume with a readable root directory of whole sectors, and no long-name piece that starts with a null, the walk ends without an exception, whatever else is damaged."
  },
  {
   "property": "C65",
   "status": "proved",
   "theorems": [
    "Verif.Props.ExFAT.C65_accepted",
    "Verif.Props.ExFAT.C65_layout",
    "Verif.Props.ExFAT.C65_lookup"
   ],
   "note": ""
  },
  {
   "property": "C66",
   "status": "partial",
   "theorems": [
    "Verif.Props.ExFAT.C66_entry_set",
    "Verif.Props.ExFAT.C66_boot_region_partial",
    "Verif.Props.ExFAT.C66_sector_size_undetected"
   ],
   "note": "C66_entry_set is the full claim for entry sets. C66_boot_region_partial: a change of a covered byte of the boot region other than the sector-size byte is detected. The claim is false for that byte, because it selects what is summed: C66_sector_size_undetected is a pair of accepted regions that differ only there."
  },
  {
   "property": "C67",
   "status": "partial",
   "theorems": [
    "Verif.Props.ExFAT.C67_backup_512",
    "Verif.Props.ExFAT.C67_backup_4096_partial",
    "Verif.Props.ExFAT.C67_used",
    "Verif.Props.ExFAT.C67_reported",
    "Verif.Props.ExFAT.C67_proceeds",
    "Verif.Props.ExFAT.C67_other_sector_sizes",
    "Verif.Props.ExFAT.C67_backup_4096_hidden"
   ],
   "note": "C67_backup_512, C67_used, C67_reported and C67_proceeds are the full claim for 512-byte sectors. False for others: the backups of volumes with 1024- and 2048-byte sectors are never tried (C67_other_sector_sizes), and something valid at the place of the 512-byte backup hides that of a volume with 4096-byte sectors (C67_backup_4096_hidden); C67_backup_4096_partial is what holds."
  },
  {
   "property": "C68",
   "status": "proved",
   "theorems": [
    "Verif.Props.ExFAT.C68_entry",
    "Verif.Props.ExFAT.C68_terminates",
    "Verif.Props.ExFAT.C68_followed",
    "Verif.Props.ExFAT.C68_reserved",
    "Verif.Props.ExFAT.C68_error",
    "Verif.Props.ExFAT.C68_clusters",
    "Verif.Props.ExFAT.C68_contiguous",
    "Verif.Props.ExFAT.C68_contiguous_valid",
    "Verif.Props.ExFAT.C68_read",
    "Verif.Props.ExFAT.C68_opened"
   ],
   "note": ""
  },
  {
   "property": "C69",
   "status": "proved",
   "theorems": [
    "Verif.Props.ExFAT.C69_listing",
    "Verif.Props.ExFAT.C69_refused",
    "Verif.Props.ExFAT.C69_set",
    "Verif.Props.ExFAT.C69_no_failure"
   ],
   "note": ""
  },
  {
   "property": "C70",
   "status": "partial",
   "theorems": [
    "Verif.Props.ExFAT.C70_cut_name",
    "Verif.Props.ExFAT.C70_names_partial",
    "Verif.Props.ExFAT.C70_orphan"
   ],
   "note": "False as stated: a name longer than the length in the stream extension is cut and not checked (C70_cut_name: an allocated file reported as \"a/b\"). C70_names_partial: this is the only way; C70_orphan is the full claim for names outside of a set."
  },
  {
   "property": "C71",
   "status": "proved",
   "theorems": [
    "Verif.Props.ExFAT.C71_bitmap",
    "Verif.Props.ExFAT.C71_bit",
    "Verif.Props.ExFAT.C71_none",
    "Verif.Props.ExFAT.C71_short",
    "Verif.Props.ExFAT.C71_opened"
   ],
   "note": ""
  },
  {
   "property": "C72",
   "status": "partial",
   "theorems": [
    "Verif.Props.ExFAT.C72_terminates",
    "Verif.Props.ExFAT.C72_no_loop_partial",
    "Verif.Props.ExFAT.C72_orphan_entered_again"
   ],
   "note": "C72_terminates is the full claim about termination, for every volume. C72_no_loop_partial: no directory is entered while it is on the path, except that an orphan directory (walked after the root) is not on its own path; C72_orphan_entered_again shows one that is entered once more."
  },
  {
   "property": "C73",
   "status": "partial",
   "theorems": [
    "Verif.Props.ExFAT.C73_ends_partial",
    "Verif.Props.ExFAT.C73_aborted"
   ],
   "note": "The claim is false: C73_aborted is a volume with a directory whose size is not a multiple of 512, which ends the walk. C73_ends_partial: for an opened volume whose root directory can be read and listed, whose bitmap covers the clusters, whose reachable directories are whole sectors and whose deleted directories have valid times, the walk ends without an exception whatever else is damaged, so that by C80_complete everything else is reported."
  },
  {
   "property": "C74",
   "status": "proved",
   "theorems": [
    "Verif.Props.ExFAT.C74_time_zone"
   ],
   "note": ""
  },
  {
   "property": "C75",
   "status": "proved",
   "theorems": [
    "Verif.Props.C75_file_records",
    "Verif.Props.C75_agrees_with_lookup"
   ],
   "note": ""
  },
  {
   "property": "C76",
   "status": "proved",
   "theorems": [
    "Verif.Props.C76_example",
    "Verif.Props.C76_fast_pages"
   ],
   "note": ""
  },
  {
   "property": "C77",
   "status": "proved",
   "theorems": [
    "Verif.Props.C77_open_attributes",
    "Verif.Props.C77_example"
   ],
   "note": ""
  },
  {
   "property": "C78",
   "status": "partial",
   "theorems": [
    "Verif.Props.C78_dumps_partial",
    "Verif.Props.C78_dumps_do_not_match"
   ],
   "note": "False as stated: after the dumps T1 N1 T2 N2 T3 a record gets T2 with N1 (C78_dumps_do_not_match). C78_dumps_partial says exactly which dumps are attached; they belong together whenever there are as many dumps of each kind."
  },
  {
   "property": "C79",
   "status": "proved",
   "theorems": [
    "Verif.Props.ExFAT.C79_timestamp",
    "Verif.Props.ExFAT.C79_found"
   ],
   "note": ""
  },
  {
   "property": "C80",
   "status": "proved",
   "theorems": [
    "Verif.Props.ExFAT.C80_sound",
    "Verif.Props.ExFAT.C80_complete",
    "Verif.Props.ExFAT.C80_newest",
    "Verif.Props.ExFAT.C80_orphans",
    "Verif.Props.ExFAT.C80_orphans_complete"
   ],
   "note": ""
  },
  {
   "property": "C81",
   "status": "proved",
   "theorems": [
    "Verif.Props.C81_sound",
    "Verif.Props.C81_complete",
    "Verif.Props.C81_orphans",
    "Verif.Props.C81_orphans_complete"
   ],
   "note": ""
  },
  {
   "property": "C82",
   "status": "proved",
   "theorems": [
    "Verif.Props.C82_open_sound"
   ],
   "note": ""
  },
  {
   "property": "C83",
   "status": "partial",
   "theorems": [
    "Verif.Props.C83_first_record_elsewhere",
    "Verif.Props.C83_first_record_partial"
   ],
   "note": "False as stated: the place in the boot sector and the one in the data runs of the first segment are never compared (C83_first_record_elsewhere). C83_first_record_partial: it holds when the first data run begins at the place in the boot sector."
  },
  {
   "property": "C84",
   "status": "partial",
   "theorems": [
    "Verif.Props.C84_exceptions_partial",
    "Verif.Props.C84_overflow_error",
    "Verif.Props.C84_value_error",
    "Verif.Props.C84_attribute_error",
    "Verif.Props.C84_struct_error"
   ],
   "note": "False as stated: OverflowError, ValueError, AttributeError and struct.error occur (C84_overflow_error, C84_value_error, C84_attribute_error, C84_struct_error). C84_exceptions_partial: no others do, and none of these without an attribute list or a place that cannot be sought to."
  },
  {
   "property": "C85",
   "status": "proved",
   "theorems": [
    "Verif.Props.C85_open_complete"
   ],
   "note": ""
  },
  {
   "property": "C86",
   "status": "proved",
   "theorems": [
    "Verif.Props.C86_merged",
    "Verif.Props.C86_unreadable"
   ],
   "note": ""
  },
  {
   "property": "C87",
   "status": "partial",
   "theorems": [
    "Verif.Props.C87_agrees_partial",
    "Verif.Props.C87_gap_merged",
    "Verif.Props.C87_first_extent_lost"
   ],
   "note": "False as stated: extents with a gap between them are merged as if they were connected (C87_gap_merged), and an attribute without its first extent is dropped (C87_first_extent_lost), where get_data_runs raises. C87_agrees_partial: whenever get_data_runs gives data runs, merging yields exactly one attribute of the stream, with these."
  },
  {
   "property": "C88",
   "status": "proved",
   "theorems": [
    "Verif.Props.C88_sound",
    "Verif.Props.C88_apart",
    "Verif.Props.C88_complete"
   ],
   "note": ""
  },
  {
   "property": "C89",
   "status": "proved",
   "theorems": [
    "Verif.Props.C89_guess"
   ],
   "note": ""
  },
  {
   "property": "C90",
   "status": "partial",
   "theorems": [
    "Verif.Props.C90_again_partial",
    "Verif.Props.C90_second_call",
    "Verif.Props.C90_kept_after_error"
   ],
   "note": "False as stated: positions guessed at the first time restrict the candidates at the second time (C90_second_call), and stay after a ValueError (C90_kept_after_error). C90_again_partial: the same result if at least 25 blocks were carved."
  },
  {
   "property": "C91",
   "status": "proved",
   "theorems": [
    "Verif.Props.C91_lines",
    "Verif.Props.C91_empty",
    "Verif.Props.C91_injective"
   ],
   "note": ""
  },
  {
   "property": "C92",
   "status": "proved",
   "theorems": [
    "Verif.Props.C92_csv_round_trip",
    "Verif.Props.C92_names",
    "Verif.Props.C92_encoding"
   ],
   "note": ""
  },
  {
   "property": "C93",
   "status": "proved",
   "theorems": [
    "Verif.Props.C93_text",
    "Verif.Props.C93_order",
    "Verif.Props.C93_filetime",
    "Verif.Props.C93_guid_time"
   ],
   "note": ""
  },
  {
   "property": "C94",
   "status": "partial",
   "theorems": [
    "Verif.Props.C94_standard_information",
    "Verif.Props.C94_extra_flags",
    "Verif.Props.C94_standard_information_extension",
    "Verif.Props.C94_duplicated_information",
    "Verif.Props.C94_file_name",
    "Verif.Props.C94_object_id",
    "Verif.Props.C94_object_id_other",
    "Verif.Props.C94_index_entry",
    "Verif.Props.C94_index_root",
    "Verif.Props.C94_reparse_point",
    "Verif.Props.C94_reparse_guid_of_record",
    "Verif.Props.C94_ea_information",
    "Verif.Props.C94_volume_information",
    "Verif.Props.C94_last_compacted_size",
    "Verif.Props.C94_last_compacted_size_none",
    "Verif.Props.C94_short"
   ],
   "note": "False as stated for one getter: the GUID of a third-party reparse point of a file record raises AssertionError, as the value there is a bytearray (C94_reparse_guid_of_record). Everything else is proved."
  },
  {
   "property": "C95",
   "status": "proved",
   "theorems": [
    "Verif.Props.C95_timestamps",
    "Verif.Props.C95_agrees"
   ],
   "note": ""
  },
  {
   "property": "C96",
   "status": "proved",
   "theorems": [
    "Verif.Props.C96_slack"
   ],
   "note": ""
  },
  {
   "property": "C97",
   "status": "partial",
   "theorems": [
    "Verif.Props.C97_usn_table",
    "Verif.Props.C97_complete_partial",
    "Verif.Props.C97_sequence_number",
    "Verif.Props.C97_one_record_stops"
   ],
   "note": "False as stated: a record with a bad name stops the program (C97_one_record_stops). C97_usn_table: the rows are right, in order and without gaps up to the record that stops the program, and when that happens. C97_complete_partial: nothing is left out when the names are inside of the records and the file table is usable."
  },
  {
   "property": "C98",
   "status": "partial",
   "theorems": [
    "Verif.Props.C98_mft_table",
    "Verif.Props.C98_complete_partial",
    "Verif.Props.C98_record_left_out",
    "Verif.Props.C98_listing_stops"
   ],
   "note": "False as stated: a file record with a damaged attribute is left out (C98_record_left_out), and a short value stops the program (C98_listing_stops). C98_mft_table: the rows are right, in order and without gaps up to the record that stops the program, and when that happens and when a block is empty. C98_complete_partial: every record has its rows when the table is usable for paths and rows can be made from all records."
  },
  {
   "property": "C99",
   "status": "partial",
   "theorems": [
    "Verif.Props.C99_parts",
    "Verif.Props.C99_index_table",
    "Verif.Props.C99_complete_partial",
    "Verif.Props.C99_parent_partial",
    "Verif.Props.C99_wrong_parent"
   ],
   "note": "False as stated: a file name that records another parent is listed in the directory whose index it is in (C99_wrong_parent), and records for which paths cannot be built, or with a damaged index, are left out or stop the program. Index buffers are read one by one, as in the code. C99_parts: reading parts of a fragmented file gives parts of its contents. C99_index_table: the rows are right, in order and without gaps up to the record that stops the program, and what is written for that record is the beginning of its rows. C99_complete_partial: every record has its rows when the table is usable for paths and the indexes can be listed. C99_parent_partial: names that record the directory are put in it."
  },
  {
   "property": "C100",
   "status": "proved",
   "theorems": [
    "Verif.Props.C100_report",
    "Verif.Props.C100_lossless",
    "Verif.Props.C100_encodable"
   ],
   "note": ""
  },
  {
   "property": "C101",
   "status": "proved",
   "theorems": [
    "Verif.Props.C101_table",
    "Verif.Props.C101_order"
   ],
   "note": ""
  },
  {
   "property": "C102",
   "status": "proved",
   "theorems": [
    "Verif.Props.C102_table",
    "Verif.Props.C102_sound",
    "Verif.Props.C102_complete"
   ],
   "note": ""
  },
  {
   "property": "C103",
   "status": "proved",
   "theorems": [
    "Verif.Props.ExFAT.C103_table",
    "Verif.Props.ExFAT.C103_refused",
    "Verif.Props.ExFAT.C103_sound",
    "Verif.Props.ExFAT.C103_complete"
   ],
   "note": ""
  },
  {
   "property": "C104",
   "status": "proved",
   "theorems": [
    "Verif.Props.ExFAT.C104_exfat",
    "Verif.Props.ExFAT.C104_fat"
   ],
   "note": ""
  },
  {
   "property": "C105",
   "status": "proved",
   "theorems": [
    "Verif.Props.Mount.C105_history",
    "Verif.Props.Mount.C105_read_only",
    "Verif.Props.Mount.C105_read",
    "Verif.Props.Mount.C105_end",
    "Verif.Props.Mount.C105_lookup",
    "Verif.Props.Mount.C105_other_names",
    "Verif.Props.Mount.C105_directory",
    "Verif.Props.Mount.C105_nothing_else"
   ],
   "note": ""
  },
  {
   "property": "C106",
   "status": "proved",
   "theorems": [
    "Verif.Props.Mount.C106_fill",
    "Verif.Props.Mount.C106_same"
   ],
   "note": ""
  },
  {
   "property": "C107",
   "status": "proved",
   "theorems": [
    "Verif.Props.Mount.C107_shadows",
    "Verif.Props.Mount.C107_bad_slot",
    "Verif.Props.Mount.C107_list",
    "Verif.Props.Mount.C107_disabled",
    "Verif.Props.Mount.C107_invalid",
    "Verif.Props.Mount.C107_not_found",
    "Verif.Props.Mount.C107_selected"
   ],
   "note": ""
  },
  {
   "property": "C108",
   "status": "partial",
   "theorems": [
    "Verif.Props.C108_report",
    "Verif.Props.C108_complete_partial",
    "Verif.Props.C108_rejected",
    "Verif.Props.C108_determined",
    "Verif.Props.C108_deleted",
    "Verif.Props.C108_bad_data",
    "Verif.Props.C108_negative_target",
    "Verif.Props.C108_deleted_left_out",
    "Verif.Props.C108_one_record_stops"
   ],
   "note": "False as stated: a deletion whose record is cut short is not listed (C108_deleted_left_out), and a record without a description ends the report (C108_one_record_stops; C108_bad_data and C108_negative_target say which records these are, among others). C108_report: what is written, for every log file, up to such a record; the lines of each section are those of Spec/LogReport, which C108_determined shows to be determined by the item. C108_deleted: which items put a number on the list. C108_complete_partial: with a description of every item, the report is complete."
  },
  {
   "property": "C109",
   "status": "proved",
   "theorems": [
    "Verif.Props.AllMft.C109_finished",
    "Verif.Props.AllMft.C109_stopped",
    "Verif.Props.AllMft.C109_complete",
    "Verif.Props.AllMft.C109_disabled",
    "Verif.Props.AllMft.C109_parts"
   ],
   "note": "C109_finished and C109_stopped say what is written, for every volume and wherever the list ends; the shadow copies are read part by part, as by the program (Model/MFT/Device, C42_stop). C109_complete says when the list is finished; C109_disabled is for a volume without shadow copies."
  },
  {
   "property": "C110",
   "status": "proved",
   "theorems": [
    "Verif.Props.Programs.C110_others",
    "Verif.Props.Programs.C110_others_fat",
    "Verif.Props.Programs.C110_usage",
    "Verif.Props.Programs.C110_usage_fat",
    "Verif.Props.Programs.C110_unopened",
    "Verif.Props.Programs.C110_unopened_fat",
    "Verif.Props.Programs.C110_contents",
    "Verif.Props.Programs.C110_contents_fat",
    "Verif.Props.Programs.C110_same_file"
   ],
   "note": "A file system is a map from paths to files; more than one path can lead to a file. C110_same_file is a finding: with the input as the output, the input is lost."
  },
  {
   "property": "C111",
   "status": "proved",
   "theorems": [
    "Verif.Props.FatMarks.C111_allocated",
    "Verif.Props.FatMarks.C111_media",
    "Verif.Props.FatMarks.C111_marks",
    "Verif.Props.FatMarks.C111_no_marks",
    "Verif.Props.FatMarks.C111_boot",
    "Verif.Props.FatMarks.C111_windows"
   ],
   "note": "C111_windows is a finding: what Windows writes to entry 1 of a FAT32 volume in use is read as clean; a comment in the code says so."
  },
  {
   "property": "C112",
   "status": "proved",
   "theorems": [
    "Verif.Props.BootFields.C112_fat16",
    "Verif.Props.BootFields.C112_fat32",
    "Verif.Props.BootFields.C112_info",
    "Verif.Props.BootFields.C112_info_refused"
   ],
   "note": ""
  },
  {
   "property": "C113",
   "status": "partial",
   "theorems": [
    "Verif.Props.BootFieldsEx.C113_fields",
    "Verif.Props.BootFieldsEx.C113_extended_elsewhere",
    "Verif.Props.BootFieldsEx.C113_extended_partial",
    "Verif.Props.BootFieldsEx.C113_extended_numbers",
    "Verif.Props.BootFieldsEx.C113_oem_elsewhere",
    "Verif.Props.BootFieldsEx.C113_oem_in_reserved",
    "Verif.Props.BootFieldsEx.C113_extended_refuted",
    "Verif.Props.BootFieldsEx.C113_oem_ignored"
   ],
   "note": "C113_fields holds for every region. False as stated for two other fields: the signature of an extended boot sector is read at byte 508 of the sector (C113_extended_elsewhere), which is its place for sectors of 512 bytes only (C113_extended_partial, C113_extended_refuted); the OEM parameters are read from the reserved sector after them (C113_oem_elsewhere, C113_oem_in_reserved), so that they are not found (C113_oem_ignored)."
  },
  {
   "property": "C114",
   "status": "proved",
   "theorems": [
    "Verif.Props.FatText.C114_text",
    "Verif.Props.FatText.C114_injective",
    "Verif.Props.FatText.C114_unusual"
   ],
   "note": ""
  },
  {
   "property": "C115",
   "status": "proved",
   "theorems": [
    "Verif.Props.ShadowBlocks.C115_start",
    "Verif.Props.ShadowBlocks.C115_block",
    "Verif.Props.ShadowBlocks.C115_described",
    "Verif.Props.ShadowBlocks.C115_located",
    "Verif.Props.ShadowBlocks.C115_items",
    "Verif.Props.ShadowBlocks.C115_locations",
    "Verif.Props.ShadowBlocks.C115_application"
   ],
   "note": ""
  },
  {
   "property": "C116",
   "status": "proved",
   "theorems": [
    "Verif.Props.Names16.C116_label",
    "Verif.Props.Names16.C116_label_stored",
    "Verif.Props.Names16.C116_label_injective",
    "Verif.Props.Names16.C116_file_name",
    "Verif.Props.Names16.C116_file_names_differ",
    "Verif.Props.Names16.C116_surrogates_alike",
    "Verif.Props.Names16.C116_stream_name",
    "Verif.Props.Names16.C116_stream_found",
    "Verif.Props.Names16.C116_streams_mixed",
    "Verif.Props.Names16.C116_log_name",
    "Verif.Props.Names16.C116_partition_name",
    "Verif.Props.Names16.C116_partition_name_stored"
   ],
   "note": "C116_surrogates_alike and C116_streams_mixed are findings about names that are not texts (lone surrogates)."
  },
  {
   "property": "C117",
   "status": "proved",
   "theorems": [
    "Verif.Props.LogFields.C117_restart_area",
    "Verif.Props.LogFields.C117_client",
    "Verif.Props.LogFields.C117_clients",
    "Verif.Props.LogFields.C117_page",
    "Verif.Props.LogFields.C117_record",
    "Verif.Props.LogFields.C117_ntfs_area",
    "Verif.Props.LogFields.C117_ntfs_area_cut",
    "Verif.Props.LogFields.C117_open_attribute1",
    "Verif.Props.LogFields.C117_open_attribute0",
    "Verif.Props.LogFields.C117_open_attribute_short"
   ],
   "note": ""
  },
  {
   "property": "C118",
   "status": "proved",
   "theorems": [
    "Verif.Props.JournalFields.C118_change",
    "Verif.Props.JournalFields.C118_ranges",
    "Verif.Props.JournalFields.C118_header",
    "Verif.Props.JournalFields.C118_entry",
    "Verif.Props.JournalFields.C118_sector"
   ],
   "note": ""
  },
  {
   "property": "C119",
   "status": "proved",
   "theorems": [
    "Verif.Props.AllMft.C119_accepted",
    "Verif.Props.AllMft.C119_complete",
    "Verif.Props.AllMft.C119_all_or_nothing"
   ],
   "note": ""
  },
  {
   "property": "C120",
   "status": "proved",
   "theorems": [
    "Verif.Props.Headers.C120_boot_sector",
    "Verif.Props.Headers.C120_boot_sizes",
    "Verif.Props.Headers.C120_segment",
    "Verif.Props.Headers.C120_index_buffer",
    "Verif.Props.Headers.C120_mbr",
    "Verif.Props.Headers.C120_exfat_media"
   ],
   "note": ""
  },
  {
   "property": "C121",
   "status": "partial",
   "theorems": [
    "Verif.Props.C121_text",
    "Verif.Props.C121_no_text",
    "Verif.Props.C121_lengths_partial",
    "Verif.Props.C121_readable",
    "Verif.Props.C121_equal",
    "Verif.Props.C121_readable_without_text",
    "Verif.Props.C121_zero_offset",
    "Verif.Props.C121_cut",
    "Verif.Props.C121_equal_shown_different"
   ],
   "note": "False as stated: a record whose data can be read has no text when an offset without data is inside of the header (C121_readable_without_text), data at offset zero is shown with the length zero (C121_zero_offset), data that is cut is shown with its full length (C121_cut), and equal data in two places is shown as different (C121_equal_shown_different). C121_text: what the text is, for all records and tables; C121_no_text: when there is none. C121_equal: data shown as equal is equal. C121_lengths_partial: the lengths are right for data that is in the record and not at offset zero. C121_readable: what can be read back from a text."
  },
  {
   "property": "C122",
   "status": "partial",
   "theorems": [
    "Verif.Props.C122_errors",
    "Verif.Props.C122_declared_partial",
    "Verif.Props.C122_empty",
    "Verif.Props.C122_struct_error",
    "Verif.Props.C122_second_page_not_tried"
   ],
   "note": "False as stated: a restart area that begins less than 24 bytes before the end of its page (or a valid one, less than 40) raises struct.error (C122_struct_error); an unknown version in the first restart page refuses a log file although the second page is good (C122_second_page_not_tried). C122_errors is the exact list of exceptions with their causes; C122_declared_partial is what holds of the claim."
  },
  {
   "property": "C123",
   "status": "partial",
   "theorems": [
    "Verif.Props.ExFAT.C123_directory",
    "Verif.Props.ExFAT.C123_declared_partial",
    "Verif.Props.ExFAT.C123_cut_region",
    "Verif.Props.ExFAT.C123_cut"
   ],
   "note": "False as stated: an image of a volume with sectors of more than 512 bytes that is cut inside of the first boot region raises struct.error, and the backup region is not tried (C123_cut, for all such images). C123_declared_partial holds when 24 sectors of 4096 bytes are there; C123_directory holds of all directories."
  },
  {
   "property": "C124",
   "status": "partial",
   "theorems": [
    "Verif.Props.C124_header_errors",
    "Verif.Props.C124_header_partial",
    "Verif.Props.C124_partitions_errors",
    "Verif.Props.C124_mbr",
    "Verif.Props.C124_opening",
    "Verif.Props.C124_overflow"
   ],
   "note": "False as stated: a signed header in the last sector with a product of the number and the size of the entries of 2^63 or more raises OverflowError (C124_overflow). C124_header_errors and C124_partitions_errors show that this is the only exception besides ValueError; C124_opening and C124_mbr hold without conditions."
  },
  {
   "property": "C125",
   "status": "proved",
   "theorems": [
    "Verif.Props.C125_opened_iff",
    "Verif.Props.C125_errors",
    "Verif.Props.C125_declared",
    "Verif.Props.C125_attribute_error",
    "Verif.Props.C125_struct_error"
   ],
   "note": ""
  },
  {
   "property": "C126",
   "status": "proved",
   "theorems": [
    "Verif.Props.C126_opened_iff",
    "Verif.Props.C126_errors",
    "Verif.Props.C126_offset",
    "Verif.Props.C126_table",
    "Verif.Props.C126_type_error"
   ],
   "note": ""
  },
  {
   "property": "C127",
   "status": "partial",
   "theorems": [
    "Verif.Props.C127_open",
    "Verif.Props.C127_select",
    "Verif.Props.C127_declared_partial",
    "Verif.Props.C127_not_implemented",
    "Verif.Props.C127_overflow",
    "Verif.Props.C127_read",
    "Verif.Props.C127_read_overflow"
   ],
   "note": "False as stated: a volume with a pointer of 2^63 or more raises OverflowError when it is opened (C127_overflow), or when the shadow copy is read (C127_read_overflow). C127_open, C127_select and C127_read show, for all volumes, that this is the only undeclared exception and where such a pointer must be; C127_declared_partial has the claim for volumes without such a pointer."
  },
  {
   "property": "C128",
   "status": "proved",
   "theorems": [
    "Verif.Props.Printed.C128_standard_information",
    "Verif.Props.Printed.C128_standard_information_short",
    "Verif.Props.Printed.C128_file_name",
    "Verif.Props.Printed.C128_file_name_short",
    "Verif.Props.Printed.C128_volume_information",
    "Verif.Props.Printed.C128_reparse_point",
    "Verif.Props.Printed.C128_ea_information",
    "Verif.Props.Printed.C128_short",
    "Verif.Props.Printed.C128_lengths",
    "Verif.Props.Printed.C128_object_id",
    "Verif.Props.Printed.C128_attribute_list",
    "Verif.Props.Printed.C128_utf8",
    "Verif.Props.Printed.C128_ea",
    "Verif.Props.Printed.C128_index_root",
    "Verif.Props.Printed.C128_index_root_error",
    "Verif.Props.Printed.C128_index_allocation",
    "Verif.Props.Printed.C128_wsl",
    "Verif.Props.Printed.C128_standard_readable",
    "Verif.Props.Printed.C128_file_name_readable",
    "Verif.Props.Printed.C128_null_printed"
   ],
   "note": ""
  },
  {
   "property": "C129",
   "status": "proved",
   "theorems": [
    "Verif.Props.Reselect.C129_selected",
    "Verif.Props.Reselect.C129_history",
    "Verif.Props.Reselect.C129_answer",
    "Verif.Props.Reselect.C129_attributes",
    "Verif.Props.Reselect.C129_unselected"
   ],
   "note": ""
  },
  {
   "property": "C130",
   "status": "partial",
   "theorems": [
    "Verif.Props.Reselect.C130_not_found_partial",
    "Verif.Props.Reselect.C130_position",
    "Verif.Props.Reselect.C130_other_size",
    "Verif.Props.Reselect.C130_attribute_error"
   ],
   "note": "False of the code: the attributes of the parser are assigned one by one while the metadata is read. C130_other_size: after a selection that fails because of a damaged table, the end of the volume is that of the other shadow copy; C130_attribute_error: reading raises AttributeError when a newer shadow copy was the damaged one. It holds for a shadow copy that is not found, and for volumes with their shadow copies elsewhere (C130_not_found_partial); the position stays in any case (C130_position). A selection that succeeds later repairs the parser (C129_history)."
  },
  {
   "property": "C131",
   "status": "partial",
   "theorems": [
    "Verif.Props.C131_again_partial",
    "Verif.Props.C131_other_header",
    "Verif.Props.C131_found_later"
   ],
   "note": "Proved for disks whose second sector is signed, or whose last sector is unsigned or names LBA 1 as the other copy (C131_again_partial). False of the code otherwise: the place of the other copy is remembered from the last header that was read, so that the next call may give another header (C131_other_header) or find one where the first call found none (C131_found_later)."
  },
  {
   "property": "C132",
   "status": "partial",
   "theorems": [
    "Verif.Props.LogAgain.C132_again_partial",
    "Verif.Props.LogAgain.C132_left_items",
    "Verif.Props.LogAgain.C132_mixed",
    "Verif.Props.LogAgain.C132_left"
   ],
   "note": "Proved for iterations with the same choice of recovery, which have ended normally if log data is recovered (C132_again_partial). False of the code otherwise: after an iteration with recovery that was left, the recovered copy is read by an iteration without recovery (C132_left); and what the restart areas of the recovered file set stays set (C132_mixed)."
  },
  {
   "property": "C133",
   "status": "partial",
   "theorems": [
    "Verif.Props.C133_later",
    "Verif.Props.C133_before",
    "Verif.Props.C133_passes_partial",
    "Verif.Props.C133_doubled"
   ],
   "note": "Proved: a later pass gives the parser that the constructor gives (C133_later), what is given before it (C133_before), and what exactly is given after any number of further passes (C133_passes_partial). That another pass changes nothing is false of the code: the child segments of all records are appended once more, so that their attributes and paths are listed twice (C133_doubled)."
  },
  {
   "property": "C134",
   "status": "proved",
   "theorems": [
    "Verif.Props.Shared.C134_files",
    "Verif.Props.Shared.C134_same_calls",
    "Verif.Props.Shared.C134_volume_moved",
    "Verif.Props.Shared.C134_threads",
    "Verif.Props.Shared.C134_records",
    "Verif.Props.Shared.C134_lookup",
    "Verif.Props.SharedShadow.C134_shadows"
   ],
   "note": "C134_files and C134_same_calls for the files of a volume, C134_shadows for parsers of shadow copies (a selection is one step), C134_records and C134_lookup for file tables (whose file is shorter than 2^63 bytes). The limits are shown too: the file object is left where the last read ended (C134_volume_moved), and calls of two threads that overlap can get the data of the other file (C134_threads)."
  }
 ]
}