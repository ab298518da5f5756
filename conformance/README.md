# Conformance checks

These scripts evaluate the definitions of the model (in `lean/Verif/Model`) on the files in `/repo/test_data` and compare what they give with
what `/repo/test_cases.py` expects of the code.  They run nothing of `/repo`.  They are tests of the model, not proofs; they are here because
a theorem about the model says something about the code only as far as the model is faithful.

To run them again: copy this directory to `/root/conf`, rename `*.lean.txt` to `*.lean`, decompress the images (`*.raw.gz`) to
`/root/conf/data`, build the model (`lake build` in `/verif/lean`), then run the Python scripts, or
`lake env lean --run /root/conf/<script>.lean <arguments>` in `/verif/lean`.

| Script | What is evaluated | Tests it follows (functions in `test_cases.py`) |
| --- | --- | --- |
| `mft.lean.txt`, `fls.py` | file records, paths, timestamps, data runs, slack and carved names of the `.mft` files | `test_mft_*`, `test_compressed_sparse`, `test_deleted`, `test_mapping_pairs` |
| `log.lean.txt`, `logcmp.py` | the five log files: restart areas, log records, and their fields | `test_logfile_11`, `test_logfile_20`, `test_logfile_20_4k`, `test_logfile_empty` |
| `misc.lean.txt` | GPT (6), MBR and EBR (7), boot sectors (6), USN records and journals | `test_gpt`, `test_mbr`, `test_boot_sectors`, `test_usn_*` |
| `misc2.lean.txt` | move tables (3), the start blocks (5) and control blocks (2) of shadow copies, carved FCB timestamps | `test_movetable*`, `test_start_block`, `test_control_blocks`, `test_fcb_carver` |
| `attr.lean.txt`, `attrcmp.py` | attributes, extended attributes, WSL metadata, reparse points | `test_lxattrb`, `test_lxxattr`, `test_wsl_in_frs`, `test_rp_in_frs`, `test_standard_information`, `test_file_name`, `test_object_id`, `test_frs`, `test_ea_sizes` |
| `vol.lean.txt` | NTFS volumes: the `$MFT` file, index buffers and their slack, attribute lists | `test_file_system` (the second image), `test_file_system_index_allocation`, `test_ntfs3`, `test_ntfs3_attrlist` |
| `fat.lean.txt`, `fatcmp.py` | FAT12, FAT16 and FAT32 volumes: listings and data | the `test_fat*` functions with an image, without `test_fat32_full` |
| `fatdir.lean.txt`, `fatdircmp.py` | FAT directories | `test_fat32_dirent`, `test_fat32_orphan_lfn`, `test_fat32_verylong`, `test_fat_orphan_*`, `test_fat_allocated_lfn_then_deleted_sfn` |
| `exfat.lean.txt`, `exfatcmp.py` | exFAT boot regions, tables, bitmaps, directories and volumes | all `test_exfat_*` functions |

Every comparison agreed.  Left out: images that are not in the repository, and those of several gigabytes (`vss_*`, `fat32_full_test`), which
are too large for lists of bytes.
