{"id": "C01", "title": "File references encode and decode losslessly", "statement": "Splitting any 64-bit file reference into (segment number, sequence number) and re-joining it gives the same reference; joining any segment number below 2^48 with any 16-bit sequence number and splitting gives the same pair; hence different pairs never share a reference.", "quantifier": "all 64-bit references; all pairs (segment < 2^48, sequence < 2^16)", "why_tests_cant": "the domain has 2^64 elements; a test samples a few", "anchors": ["dfir_ntfs/MFT.py:DecodeFileRecordSegmentReference", "dfir_ntfs/MFT.py:EncodeFileRecordSegmentReference"]}
{"id": "C02", "title": "Mapping pairs decode back to the run list they encode", "statement": "For every run list (positive lengths, optional LCNs, any legal field widths) the decoder applied to its on-disk encoding, followed by the terminator and arbitrary trailing bytes, returns exactly the (lcn, length) list that was encoded; nothing after the terminator influences the result.", "quantifier": "all run lists of any length, all legal field widths 1..8 / 0..8, all trailing bytes", "why_tests_cant": "run lists are unbounded and the width choices multiply", "anchors": ["dfir_ntfs/MFT.py:DecodeMappingPairs"]}
{"id": "C03", "title": "The mapping pairs decoder accepts only well-formed encodings", "statement": "For every byte string: the decoder either raises MappingPairsException or returns a run list of which the byte string (up to its terminator) is an encoding; every returned length is positive, no returned run other than the first starts at cluster 0, and it never raises any other exception.", "quantifier": "all byte strings", "why_tests_cant": "the set of malformed inputs is infinite", "anchors": ["dfir_ntfs/MFT.py:DecodeMappingPairs"]}
{"id": "C04", "title": "Decoded runs never point before the start of the volume", "statement": "Every run returned by the mapping pairs decoder that carries an LCN carries a non-negative one.", "quantifier": "all byte strings", "why_tests_cant": "needs a claim over every sequence of signed deltas", "anchors": ["dfir_ntfs/MFT.py:DecodeMappingPairs"]}
{"id": "C05", "title": "Update sequence array round trip for file records", "statement": "Take any file record contents with a valid header, protect it as NTFS does (store the last two bytes of every 512-byte sector in the update sequence array and overwrite them with the update sequence number) and parse it: the parser accepts it and the recovered bytes equal the original contents.", "quantifier": "all 1024/4096-byte records, all update sequence numbers, all legal USA offsets", "why_tests_cant": "contents range over 2^8192 values", "anchors": ["dfir_ntfs/MFT.py:FileRecordSegment.__init__", "dfir_ntfs/MFT.py:FileRecordSegment.apply_update_sequence_array"]}
{"id": "C06", "title": "Torn file records are rejected", "statement": "If an on-disk file record has a sector inside its used region whose trailing two bytes differ from the update sequence number, parsing the record with fix-ups enabled raises FileRecordSegmentException; no record with a torn used region is ever accepted.", "quantifier": "all buffers, all torn sectors", "why_tests_cant": "every combination of torn sectors (crash points of a multi-sector write) must be covered", "anchors": ["dfir_ntfs/MFT.py:FileRecordSegment.__init__", "dfir_ntfs/MFT.py:FileRecordSegment.apply_update_sequence_array"]}
{"id": "C07", "title": "Accepted file records have a sane header", "statement": "Whenever a file record is accepted: its size is 1024 or 4096, its signature is one of the three known ones, the declared size is 1024 or 4096 and not larger than the buffer, the used size lies between 42 and the declared size, and the first attribute offset is 8-aligned, lies after the update sequence array and at least 24 bytes before the end of the declared size.", "quantifier": "all buffers", "why_tests_cant": "must hold for every hostile buffer", "anchors": ["dfir_ntfs/MFT.py:FileRecordSegment.__init__", "dfir_ntfs/MFT.py:FileRecordSegment.validate_file_record_segment_header"]}
{"id": "C08", "title": "Attribute enumeration stays inside the used part of the record", "statement": "For every accepted file record, listing its attributes terminates, and every yielded attribute occupies an 8-aligned, 8-byte-multiple region inside [first attribute offset, used size); the regions are in increasing order and do not overlap; a resident value, a name and the mapping pairs lie inside the region of their own attribute.", "quantifier": "all accepted records", "why_tests_cant": "every hostile record must be covered", "anchors": ["dfir_ntfs/MFT.py:FileRecordSegment.attributes"]}
{"id": "C09", "title": "Attribute enumeration finds every attribute of a well-formed record", "statement": "If the used part of a record is a sequence of well-formed attribute records followed by the end marker, listing the attributes yields exactly those attributes, in order, with their type, name and value/runs intact.", "quantifier": "all sequences of well-formed attributes that fit a record", "why_tests_cant": "sequences and contents unbounded in combination", "anchors": ["dfir_ntfs/MFT.py:FileRecordSegment.attributes"]}
{"id": "C10", "title": "Slack of a record is exactly the part after its used bytes", "statement": "The slack returned for a record is the suffix of the record that starts where the attributes end, so used part and slack partition the record.", "quantifier": "all accepted records", "why_tests_cant": "must hold for every layout", "anchors": ["dfir_ntfs/MFT.py:FileRecordSegment.get_slack", "dfir_ntfs/MFT.py:FileRecordSegment.attributes"]}
{"id": "C11", "title": "Data runs of a file are assembled in VCN order without gaps", "statement": "The run list reported for a file's data is the concatenation of the run lists of its matching attribute records in increasing VCN order; if the extents do not connect (the lowest VCN of an extent is not the number of clusters described by the extents before it) the parser raises instead of returning a list; the result does not depend on the order in which the attribute records are stored.", "quantifier": "all sets of extents, in all storage orders", "why_tests_cant": "orders and extent counts are unbounded", "anchors": ["dfir_ntfs/MFT.py:FileRecord.get_data_runs", "dfir_ntfs/MFT.py:FileRecord.get_data_size"]}
{"id": "C12", "title": "Reading a fragmented file returns the bytes its runs describe", "statement": "For every run list, volume contents, cluster size and position, reading returns exactly the bytes of the virtual file (clusters in run order, zeros for sparse runs) starting at the current position, and the position advances by the number of bytes returned.", "quantifier": "all run lists, volumes, offsets and sizes", "why_tests_cant": "unbounded run lists and positions", "anchors": ["dfir_ntfs/MFT.py:FragmentedFile.read", "dfir_ntfs/MFT.py:FragmentedFile.read_virtual_cluster", "dfir_ntfs/MFT.py:FragmentedFile.seek"]}
{"id": "C13", "title": "Reads of a fragmented file never go past end of file", "statement": "A read never returns bytes at or beyond the recorded file size: at position p it returns at most max(0, size - p) bytes.", "quantifier": "all run lists, file sizes, positions and requested sizes", "why_tests_cant": "depends on the interplay of three unbounded quantities", "anchors": ["dfir_ntfs/MFT.py:FragmentedFile.read"]}
{"id": "C14", "title": "Splitting a read does not change the data", "statement": "Reading n bytes and then m bytes returns the same bytes as reading n+m bytes at once, and leaves the same position.", "quantifier": "all fragmented files, positions, n and m", "why_tests_cant": "all histories of read calls", "anchors": ["dfir_ntfs/MFT.py:FragmentedFile.read"]}
{"id": "C15", "title": "Seeking is exact and failure-atomic", "statement": "seek with whence 0, 1, 2 moves to the requested position relative to start, current position or end and returns it; a seek that would give a negative position raises and leaves the position unchanged; tell always reports the position set by the last successful seek advanced by the bytes read since.", "quantifier": "all states, offsets and whence values; all histories", "why_tests_cant": "all histories of calls", "anchors": ["dfir_ntfs/MFT.py:FragmentedFile.seek", "dfir_ntfs/MFT.py:FragmentedFile.tell", "dfir_ntfs/ShadowCopy.py:ShadowParser.seek"]}
{"id": "C16", "title": "Looking up a record by reference honours the sequence number", "statement": "When an expected sequence number is given and the lookup returns, the record's (deletion-adjusted) sequence number equals it; a record whose number differs is never returned.", "quantifier": "all master file tables, numbers and sequence numbers", "why_tests_cant": "all contents", "anchors": ["dfir_ntfs/MFT.py:MasterFileTableParser.get_file_record_by_number", "dfir_ntfs/MFT.py:MasterFileTableParser.get_file_record_segment_by_number"]}
{"id": "C17", "title": "Loading a record with extension records terminates", "statement": "For every master file table (including attribute lists that refer to each other in a cycle), looking up any record finishes: child records are loaded to depth one at most and each one once.", "quantifier": "all master file tables", "why_tests_cant": "cyclic references are unbounded", "anchors": ["dfir_ntfs/MFT.py:MasterFileTableParser.get_file_record_by_number", "dfir_ntfs/MFT.py:FileRecord.__init__"]}
{"id": "C18", "title": "Path building terminates and never loops", "statement": "For every master file table, including one whose directories form parent cycles, building the full paths of a record terminates; each path visits every directory at most once.", "quantifier": "all parent graphs, including cyclic ones", "why_tests_cant": "all graphs", "anchors": ["dfir_ntfs/MFT.py:MasterFileTableParser.build_full_paths"]}
{"id": "C19", "title": "Built paths follow the recorded parents", "statement": "Each built path is the list of names along the chain of parent references from the record up to the root directory, separated by the path separator; a path starts with the separator exactly when the chain reaches the root directory, and starts with the orphan marker otherwise.", "quantifier": "all parent graphs", "why_tests_cant": "all graphs", "anchors": ["dfir_ntfs/MFT.py:MasterFileTableParser.build_full_paths"]}
{"id": "C20", "title": "A file found by path really has that path", "statement": "If looking up a path returns a record, there is a chain of in-use records from the root directory to it in which each record carries a name equal (as the lookup compares names) to the corresponding path component and whose parent reference is the previous record.", "quantifier": "all master file tables and paths", "why_tests_cant": "all tables and paths", "anchors": ["dfir_ntfs/MFT.py:MasterFileTableParser.get_file_record_by_path"]}
{"id": "C21", "title": "Slack carving yields only plausible records and terminates", "statement": "Carving any slack buffer terminates; every reported file name entry lies completely inside the buffer and its four timestamps lie within the accepted bounds.", "quantifier": "all buffers", "why_tests_cant": "all buffers", "anchors": ["dfir_ntfs/MFT.py:SlackSpace.carve"]}
{"id": "C22", "title": "Attribute list parsing is exact and total", "statement": "Parsing a well-formed $ATTRIBUTE_LIST value (any number of entries, any names) yields exactly its entries in order; for every byte string parsing terminates and either yields entries lying inside the value or raises the documented exception.", "quantifier": "all lists of entries; all byte strings", "why_tests_cant": "unbounded", "anchors": ["dfir_ntfs/Attributes.py:AttributeList.entries"]}
{"id": "C23", "title": "Index entries are enumerated completely and safely", "statement": "Enumerating the entries of an index node terminates for every buffer; every entry lies inside the node; for a well-formed node the entries are exactly those stored, up to the end entry.", "quantifier": "all buffers and all well-formed nodes", "why_tests_cant": "unbounded", "anchors": ["dfir_ntfs/Attributes.py:IndexRoot.index_entries", "dfir_ntfs/Attributes.py:IndexBuffer.index_entries"]}
{"id": "C24", "title": "Extended attributes parse back what was stored", "statement": "Parsing a well-formed $EA value (any number of entries) yields exactly the stored (name, flags, value) triples in order; for every byte string parsing terminates.", "quantifier": "all EA lists; all byte strings", "why_tests_cant": "unbounded", "anchors": ["dfir_ntfs/Attributes.py:EA.data_parsed"]}
{"id": "C25", "title": "Index buffers: fix-up round trip and torn write detection", "statement": "An index buffer protected with an update sequence array is restored exactly; if any sector's trailer differs from the update sequence number, the buffer is rejected.", "quantifier": "all buffers and torn sectors", "why_tests_cant": "all crash points", "anchors": ["dfir_ntfs/Attributes.py:VerifyAndUnprotectIndexSectors"]}
{"id": "C26", "title": "Decoded FILETIME values are exact to the microsecond", "statement": "The datetime decoded from a FILETIME value equals 1601-01-01 plus floor(value/10) microseconds.", "quantifier": "all 64-bit FILETIME values in the supported range", "why_tests_cant": "2^63 values", "anchors": ["dfir_ntfs/Attributes.py:DecodeFiletime"]}
{"id": "C27", "title": "File attribute flags resolve exactly", "statement": "The textual list of file attributes names exactly the documented flags that are set in the value, each once.", "quantifier": "all 32-bit flag values", "why_tests_cant": "2^32 values and growing tables", "anchors": ["dfir_ntfs/Attributes.py:ResolveFileAttributes"]}
{"id": "C28", "title": "Change journal scan yields only valid, ordered, non-overlapping records", "statement": "Scanning any journal file terminates; each yielded record lies inside the file at an 8-aligned offset, offsets strictly increase and records never overlap, and each satisfies the size and version checks.", "quantifier": "all journal files", "why_tests_cant": "all files", "anchors": ["dfir_ntfs/USN.py:ChangeJournalParser.usn_records", "dfir_ntfs/USN.py:GetUsnRecord"]}
{"id": "C29", "title": "Change journal scan finds every record of a well-formed journal", "statement": "For a journal made of runs of zero bytes and valid records (each at most 8192 bytes, 8-aligned), scanning yields exactly those records in order.", "quantifier": "all such journals", "why_tests_cant": "all layouts", "anchors": ["dfir_ntfs/USN.py:ChangeJournalParser.usn_records"]}
{"id": "C30", "title": "Reason and source flags are reported without loss", "statement": "The textual reason (source) contains the name of every documented flag that is set and, when other bits are set, a hexadecimal value that is exactly the remaining bits; so the original value can be recovered from the text.", "quantifier": "all 32-bit values", "why_tests_cant": "2^32 values", "anchors": ["dfir_ntfs/USN.py:ResolveReasonCodes", "dfir_ntfs/USN.py:ResolveSourceCodes"]}
{"id": "C31", "title": "USN records: fields and name stay inside the record", "statement": "For every accepted version 2/3/4 record, the file name (or the extents) returned lies inside the record as declared by its length, and the accepted length is a positive multiple of 8 that fits the buffer.", "quantifier": "all buffers", "why_tests_cant": "all buffers", "anchors": ["dfir_ntfs/USN.py:USN_RECORD_V2_OR_V3", "dfir_ntfs/USN.py:USN_RECORD_V4"]}
{"id": "C32", "title": "LSNs and file offsets correspond one to one", "statement": "Converting any LSN to a (page, offset) position and a sequence number and converting those back gives the same LSN, for every number of sequence bits accepted by the parser; two different LSNs never map to the same position and sequence number.", "quantifier": "all LSNs, all accepted sequence-number widths", "why_tests_cant": "2^64 x widths", "anchors": ["dfir_ntfs/LogFile.py:LogFileParser.lsn_to_offset", "dfir_ntfs/LogFile.py:LogFileParser.lsn_to_seqnum", "dfir_ntfs/LogFile.py:LogFileParser.offset_to_lsn"]}
{"id": "C33", "title": "Log pages: fix-up round trip and torn write detection", "statement": "A log page protected with an update sequence array is restored exactly, and a page having a sector with a wrong trailer is rejected.", "quantifier": "all pages and torn sectors", "why_tests_cant": "all crash points", "anchors": ["dfir_ntfs/LogFile.py:UnprotectSectors"]}
{"id": "C34", "title": "Every LSN reported exists in the log", "statement": "Every LSN in the collected list belongs to a record whose own header carries that LSN at the position the LSN encodes; the list is sorted and free of duplicates.", "quantifier": "all log files", "why_tests_cant": "all histories of a circular log", "anchors": ["dfir_ntfs/LogFile.py:LogFileParser.collect_lsns"]}
{"id": "C35", "title": "Replaying the log never modifies the input file", "statement": "No operation of the log parser writes to the underlying file (the two repair methods are called directly only after the parser was made writable, as their documentation demands): page repairs go to an in-memory overlay, reads see the overlay first, and after changes are discarded reads give the original bytes.", "quantifier": "all sequences of repair writes and reads", "why_tests_cant": "all histories", "anchors": ["dfir_ntfs/LogFile.py:LogFileParser.prepare_for_writes", "dfir_ntfs/LogFile.py:LogFileParser.discard_changes", "dfir_ntfs/LogFile.py:LogFileParser.apply_tail_page", "dfir_ntfs/LogFile.py:LogFileParser.apply_fast_pages", "dfir_ntfs/LogFile.py:LogFileParser.parse_ntfs_records"]}
{"id": "C36", "title": "The most recent tail page copy wins", "statement": "When both tail page copies are valid the one with the later last end LSN is applied; an invalid copy is never applied.", "quantifier": "all pairs of tail pages", "why_tests_cant": "all log states", "anchors": ["dfir_ntfs/LogFile.py:LogFileParser.apply_tail_page"]}
{"id": "C37", "title": "Log record data spanning pages is reassembled exactly", "statement": "Reading the client data of a log record terminates and returns exactly the declared number of bytes: the concatenation of the data parts of the consecutive pages it spans, wrapping from the last page to the first data page.", "quantifier": "all record lengths and positions, all page sizes", "why_tests_cant": "unbounded spans", "anchors": ["dfir_ntfs/LogFile.py:LogFileParser.get_client_data"]}
{"id": "C38", "title": "The newest valid restart page is used", "statement": "The parser uses a restart page that passes all validity checks, and never one whose LSN is older than another valid one.", "quantifier": "all pairs of restart pages", "why_tests_cant": "all crash points between the two restart page writes", "anchors": ["dfir_ntfs/LogFile.py:LogFileParser.__init__"]}
{"id": "C39", "title": "Redo and undo data of a log record stay inside the record", "statement": "The redo/undo data and the LCN list returned for a log record are taken from inside the record at the recorded offsets and lengths, or the record is rejected.", "quantifier": "all records", "why_tests_cant": "all records", "anchors": ["dfir_ntfs/LogFile.py:NTFSLogRecord"]}
{"id": "C40", "title": "Dumped attribute name and open attribute tables parse safely and completely", "statement": "Parsing a dumped attribute names table terminates for every buffer and yields exactly the stored (index, name) entries for a well-formed one.", "quantifier": "all buffers, all tables", "why_tests_cant": "unbounded", "anchors": ["dfir_ntfs/LogFile.py:AttributeNamesDumpParser", "dfir_ntfs/LogFile.py:OpenAttributeTableDumpParser"]}
{"id": "C41", "title": "A shadow copy block is translated into 32 sectors with a fixed precedence", "statement": "For every block inside the volume, translation gives exactly 32 sector sources; each sector comes from the overlay when its bit is set, otherwise from the copied (or forwarded) block, otherwise from the next newer snapshot, otherwise from the current volume or zeros by the bitmap rule; a block that is the unused target of a forwarder, is not copied in the store and not copied later is zeros. A misaligned offset, an offset outside the volume or a forwarder that leads to one gives ValueError, never a wrong sector.", "quantifier": "all volumes, diff areas, bitmaps and offsets", "why_tests_cant": "all histories of copy-on-write operations", "anchors": ["dfir_ntfs/ShadowCopy.py:ShadowParser.translate_exact_offset"]}
{"id": "C42", "title": "Reading a shadow copy is position-wise exact", "statement": "Reading any range of a shadow copy returns, byte by byte, the content determined by the block translation, independently of how the range is split into reads.", "quantifier": "all offsets, sizes and sequences of reads", "why_tests_cant": "all histories", "anchors": ["dfir_ntfs/ShadowCopy.py:ShadowParser.read", "dfir_ntfs/ShadowCopy.py:ShadowParser.read_at_exact_offset"]}
{"id": "C43", "title": "Reads of a shadow copy stop at the volume size", "statement": "A read never returns bytes at or beyond the volume size.", "quantifier": "all offsets and sizes", "why_tests_cant": "all sizes", "anchors": ["dfir_ntfs/ShadowCopy.py:ShadowParser.read"]}
{"id": "C44", "title": "Opening a volume with shadow copies terminates", "statement": "Constructing the parser and selecting a shadow copy finish for every volume image, including one whose metadata block chains are cyclic.", "quantifier": "all volume images", "why_tests_cant": "all pointer graphs", "anchors": ["dfir_ntfs/ShadowCopy.py:ShadowParser.__init__", "dfir_ntfs/ShadowCopy.py:ShadowParser.select_shadow"]}
{"id": "C45", "title": "Forwarded blocks are resolved as recorded", "statement": "While the differential area is loaded, an entry recorded against an already forwarded block is re-targeted exactly as the earlier forwarder demands and entries keep their recorded order within an offset.", "quantifier": "all sequences of diff area entries", "why_tests_cant": "all histories of copy-on-write operations", "anchors": ["dfir_ntfs/ShadowCopy.py:ShadowParser.read_diff_area"]}
{"id": "C46", "title": "An accepted GPT is internally consistent", "statement": "Whenever a GPT header is accepted, its signature, header CRC and partition array CRC match, the header and partition array lie at the recorded places, and first/last usable LBAs are ordered.", "quantifier": "all disk images", "why_tests_cant": "all images", "anchors": ["dfir_ntfs/PartitionTable.py:GPT.read_gpt_header", "dfir_ntfs/PartitionTable.py:GPT.read_gpt_header_internal"]}
{"id": "C47", "title": "A damaged primary GPT falls back to the backup", "statement": "If the primary header is invalid but the backup header (at the recorded place or in the last sector) is valid, the partitions listed are the ones described by that backup; if none is valid the documented exception is raised.", "quantifier": "all damage patterns", "why_tests_cant": "all crash points", "anchors": ["dfir_ntfs/PartitionTable.py:GPT.read_gpt_header", "dfir_ntfs/PartitionTable.py:GPT.read_gpt_partitions"]}
{"id": "C48", "title": "GPT partitions are listed exactly", "statement": "The partitions listed are exactly the entries with a non-zero type, in table order, with start and size matching the entry.", "quantifier": "all partition arrays", "why_tests_cant": "unbounded arrays", "anchors": ["dfir_ntfs/PartitionTable.py:GPT.read_gpt_partitions"]}
{"id": "C49", "title": "Logical partitions: chain walk terminates and is exact", "statement": "Walking the extended partition chain terminates for every disk, including cyclic chains, and for a well-formed chain lists every logical partition exactly once in order.", "quantifier": "all disks", "why_tests_cant": "all pointer graphs", "anchors": ["dfir_ntfs/PartitionTable.py:MBR.read_ebr_partitions", "dfir_ntfs/PartitionTable.py:MBR.read_mbr_partitions"]}
{"id": "C50", "title": "Boot sector geometry is consistent", "statement": "For every accepted NTFS boot sector the cluster size is a power-of-two multiple of the sector size (by the signed-byte rule), and the file record and index record sizes follow the documented signed-byte rule.", "quantifier": "all boot sectors", "why_tests_cant": "all buffers", "anchors": ["dfir_ntfs/BootSector.py:BootSector"]}
{"id": "C51", "title": "Move tables: entries are decoded exactly", "statement": "The entries listed for a move table are exactly the moves in the slots of the whole sectors after the header, in order, up to the first slot of unknown type, where NotImplementedError is raised; the timestamp range reported for an entry contains the decoded datetime of every FILETIME with the stored upper half.", "quantifier": "all move tables", "why_tests_cant": "unbounded", "anchors": ["dfir_ntfs/MoveTable.py:MoveTableParser"]}
{"id": "C52", "title": "WSL extended attributes parse back what was stored", "statement": "Parsing a well-formed LXXATTR value yields the stored (name, value) pairs in order; parsing terminates for every byte string; the LXATTRB decoder accepts exactly 56-byte values.", "quantifier": "all attribute lists; all byte strings", "why_tests_cant": "unbounded", "anchors": ["dfir_ntfs/WSL.py:LXXATTR.extended_attributes", "dfir_ntfs/WSL.py:LXATTRB"]}
{"id": "C53", "title": "FAT type is decided by the cluster count alone", "statement": "For every boot sector with 16-bit FAT size, exactly one of FAT12/FAT16/FAT32 (or a rejection) applies: FAT12 for 1..4084 clusters, FAT16 for 4085..65524; a boot sector without 16-bit FAT size is FAT32; the decision never depends on other fields.", "quantifier": "all boot sectors", "why_tests_cant": "2^4096 boot sectors", "anchors": ["dfir_ntfs/addons/FAT.py:GetCountOfClusters", "dfir_ntfs/addons/FAT.py:IsFileSystem32", "dfir_ntfs/addons/FAT.py:IsFileSystem16", "dfir_ntfs/addons/FAT.py:IsFileSystem12", "dfir_ntfs/addons/FAT.py:BSBPB.__init__"]}
{"id": "C54", "title": "An unsupported boot sector is always rejected with BootSectorException", "statement": "For every 512-byte sector, constructing the FAT boot sector object either succeeds or raises BootSectorException (or NotImplementedError for an unsupported version), never an internal error.", "quantifier": "all 512-byte sectors", "why_tests_cant": "all buffers", "anchors": ["dfir_ntfs/addons/FAT.py:BSBPB.__init__", "dfir_ntfs/addons/FAT.py:GetCountOfClusters"]}
{"id": "C55", "title": "FAT entries are read exactly", "statement": "For every FAT12/16/32 table written with arbitrary entry values, reading entry n returns the n-th value (28 bits for FAT32), in particular for the 1.5-byte packing of FAT12.", "quantifier": "all tables, all entry numbers", "why_tests_cant": "unbounded tables", "anchors": ["dfir_ntfs/addons/FAT.py:FAT.get_element"]}
{"id": "C56", "title": "Cluster chains terminate and are followed exactly", "statement": "For every FAT (including cyclic ones) and every first cluster, following the chain terminates; the result starts with the first cluster, each element is the FAT entry of the previous one, no cluster occurs twice, all clusters are valid, and a bad-cluster mark appears only as the last element.", "quantifier": "all FATs and start clusters", "why_tests_cant": "all pointer graphs", "anchors": ["dfir_ntfs/addons/FAT.py:FAT.chain"]}
{"id": "C57", "title": "Reading a FAT chain returns the clusters in order, cut to the size", "statement": "The data returned is the concatenation of the clusters of the chain (zeros for a bad one), truncated to the file size when one is given; it never contains bytes outside the clusters of the chain.", "quantifier": "all volumes, chains and sizes", "why_tests_cant": "unbounded", "anchors": ["dfir_ntfs/addons/FAT.py:FileSystemParser.read_chain"]}
{"id": "C58", "title": "The short name checksum detects any single changed character", "statement": "Two 11-byte names that differ in exactly one position have different checksums; so a long name is never attached to the entry of an allocated file whose short name differs from the one it was written for in a single byte.", "quantifier": "all pairs of names", "why_tests_cant": "2^88 names", "anchors": ["dfir_ntfs/addons/FAT.py:BuildChecksum"]}
{"id": "C59", "title": "Short name validation and parsing agree with the 8.3 rules", "statement": "A name is accepted exactly when it is 11 bytes, is a dot entry or has no lowercase/forbidden characters (with the first-byte exceptions); a parsed name is base, dot, extension with trailing spaces removed, without the dot when there is no extension.", "quantifier": "all byte strings", "why_tests_cant": "2^88 names", "anchors": ["dfir_ntfs/addons/FAT.py:ValidateShortName", "dfir_ntfs/addons/FAT.py:ParseShortName"]}
{"id": "C60", "title": "Long file names are reassembled exactly", "statement": "Writing any long name (1..255 UTF-16 units) as a set of long entries before its short entry and listing the directory reports that entry with exactly that long name; an allocated file has a long name exactly when the slots before it end with a complete set of long entries that carries the checksum of its short name.", "quantifier": "all names and directories", "why_tests_cant": "unbounded", "anchors": ["dfir_ntfs/addons/FAT.py:DirectoryEntries.entries", "dfir_ntfs/addons/FAT.py:BuildLongName"]}
{"id": "C61", "title": "Directory listing accounts for entries and reports deletion correctly", "statement": "Listing any directory buffer yields at most one file per 32-byte slot, in slot order; a slot is reported as deleted exactly when its first byte is 0x00 or 0xE5, as unknown when it follows a null entry, and as allocated otherwise.", "quantifier": "all directory buffers", "why_tests_cant": "all buffers", "anchors": ["dfir_ntfs/addons/FAT.py:DirectoryEntries.entries"]}
{"id": "C62", "title": "FAT dates and times decode exactly", "statement": "Every packed date/time built from a valid calendar date (1980..2107) and time (even seconds) decodes to it; every other packed value decodes to None.", "quantifier": "all 16-bit values", "why_tests_cant": "calendar validity over the whole domain", "anchors": ["dfir_ntfs/addons/FAT.py:DecodeFATDate", "dfir_ntfs/addons/FAT.py:DecodeFATTime", "dfir_ntfs/addons/exFAT.py:DecodeFATTimestamp"]}
{"id": "C63", "title": "Walking a FAT volume terminates", "statement": "For every volume, including one with directory loops, walking terminates; no directory is entered while it is already on the path being walked.", "quantifier": "all volumes", "why_tests_cant": "all directory graphs", "anchors": ["dfir_ntfs/addons/FAT.py:FileSystemParser.walk"]}
{"id": "C64", "title": "Walking a FAT volume does not fail on damaged long names", "statement": "A damaged or orphan long-name entry never aborts the walk.", "quantifier": "all volumes", "why_tests_cant": "all contents", "anchors": ["dfir_ntfs/addons/FAT.py:FileSystemParser.walk", "dfir_ntfs/addons/FAT.py:ExpandPath", "dfir_ntfs/addons/FAT.py:BuildLongName"]}
{"id": "C65", "title": "An accepted exFAT boot region is consistent", "statement": "Whenever a boot region is accepted, its checksum matches, the FAT covers every cluster and lies between the boot regions and the cluster heap, every cluster lies inside the volume and the root directory cluster is valid; hence entry lookup of a valid cluster is never out of bounds.", "quantifier": "all boot regions", "why_tests_cant": "all buffers", "anchors": ["dfir_ntfs/addons/exFAT.py:BR.validate", "dfir_ntfs/addons/exFAT.py:FAT.get_element"]}
{"id": "C66", "title": "exFAT checksums detect any single changed byte", "statement": "Two boot regions (entry sets) that differ in exactly one covered byte have different checksums, so such a corruption is always detected.", "quantifier": "all boot regions and entry sets, any position", "why_tests_cant": "2^49152 buffers", "anchors": ["dfir_ntfs/addons/exFAT.py:BR.calculate_checksum", "dfir_ntfs/addons/exFAT.py:EntrySetChecksum"]}
{"id": "C67", "title": "exFAT backup boot region is used when the main one is damaged", "statement": "If the main boot region is rejected and the backup for the sector size is valid, parsing proceeds with the backup and reports that it did.", "quantifier": "all images", "why_tests_cant": "all damage patterns", "anchors": ["dfir_ntfs/addons/exFAT.py:FileSystemParser.__init__"]}
{"id": "C68", "title": "exFAT cluster chains terminate and are followed exactly", "statement": "As for FAT: the chain walk terminates on every table, has no duplicates, follows the table, and a bad mark can only be last; contiguous (no-FAT) files use consecutive clusters and never go past the last valid cluster.", "quantifier": "all FATs, start clusters and sizes", "why_tests_cant": "all pointer graphs", "anchors": ["dfir_ntfs/addons/exFAT.py:FAT.chain", "dfir_ntfs/addons/exFAT.py:FileSystemParser.read_chain"]}
{"id": "C69", "title": "Allocated exFAT entry sets are reported only when their checksum holds", "statement": "Every allocated file reported from an exFAT directory comes from an entry set of 3..65 consecutive entries whose stored checksum equals the computed one and whose stream and name entries are in the required places; enumeration terminates on every buffer.", "quantifier": "all directory buffers", "why_tests_cant": "all buffers", "anchors": ["dfir_ntfs/addons/exFAT.py:DirectoryEntries.entries"]}
{"id": "C70", "title": "Reported exFAT names contain no path separators or forbidden characters", "statement": "No file name reported from an exFAT directory contains a forbidden character (in particular the path separator).", "quantifier": "all directory buffers", "why_tests_cant": "all buffers", "anchors": ["dfir_ntfs/addons/exFAT.py:BuildName", "dfir_ntfs/addons/exFAT.py:DirectoryEntries.entries"]}
{"id": "C71", "title": "exFAT allocation bitmap lookups are exact", "statement": "For every cluster number the answer is None for reserved or out-of-range clusters and otherwise the value of bit (cluster - 2) of the bitmap; an IndexError, and only then, when the bitmap is too short to have that bit. The bitmap of a volume is that of the first bitmap entry in the root directory with the number of the active table.", "quantifier": "all bitmaps, cluster numbers and volumes", "why_tests_cant": "unbounded", "anchors": ["dfir_ntfs/addons/exFAT.py:Bitmap.is_allocated", "dfir_ntfs/addons/exFAT.py:FileSystemParser"]}
{"id": "C72", "title": "Walking an exFAT volume terminates", "statement": "For every volume, including one with directory loops, walking terminates; no directory is entered while it is already on the path.", "quantifier": "all volumes", "why_tests_cant": "all graphs", "anchors": ["dfir_ntfs/addons/exFAT.py:FileSystemParser.walk"]}
{"id": "C73", "title": "A damaged subdirectory does not abort an exFAT walk", "statement": "An unreadable or damaged subdirectory is skipped and the rest of the volume is still listed.", "quantifier": "all volumes", "why_tests_cant": "all damage patterns", "anchors": ["dfir_ntfs/addons/exFAT.py:FileSystemParser.walk"]}
{"id": "C74", "title": "exFAT time zones decode to the signed offset", "statement": "Every valid time zone byte decodes to the 7-bit signed number of 15-minute intervals it encodes, and None when the valid bit is clear.", "quantifier": "all bytes", "why_tests_cant": "stated for the whole domain", "anchors": ["dfir_ntfs/addons/exFAT.py:DecodeFATTimezone"]}
{"id": "C75", "title": "Enumerating file records lists every valid base record once", "statement": "Enumerating the file records of a master file table yields, in increasing order of their numbers, the record of every complete valid base segment exactly once (only those in use, when asked to), skips damaged segments without raising, and agrees with the lookup by number.", "quantifier": "all master file tables", "why_tests_cant": "all damage patterns", "anchors": ["dfir_ntfs/MFT.py:MasterFileTableParser.file_records"]}
{"id": "C76", "title": "Fast pages newer than the log are applied, the newest last", "statement": "For a log with version 2 or later, exactly the valid pages of the fast area whose last LSN is later than that of every page of the rest of the log are copied to the places they record; where several are for the same place the one with the latest LSN wins, and all other bytes are unchanged.", "quantifier": "all log files", "why_tests_cant": "all crash points between the writes of a page and of its copy", "anchors": ["dfir_ntfs/LogFile.py:LogFileParser.apply_fast_pages"]}
{"id": "C77", "title": "The open attribute table attached to a log record is the one in force", "statement": "The table attached to a log record has for each index the file reference and name of the last operation that opened an attribute with that index among the records of the same client up to this one.", "quantifier": "all histories of log records", "why_tests_cant": "all histories", "anchors": ["dfir_ntfs/LogFile.py:LogFileParser.parse_ntfs_records"]}
{"id": "C78", "title": "The table dumps attached to a log record belong together", "statement": "The dump of the open attribute table and the dump of attribute names attached to a log record belong to the same checkpoint: the n-th dump of one kind with the n-th of the other.", "quantifier": "all histories of log records", "why_tests_cant": "all histories", "anchors": ["dfir_ntfs/LogFile.py:LogFileParser.parse_ntfs_records"]}
{"id": "C79", "title": "exFAT timestamps decode exactly", "statement": "A timestamp of an exFAT file entry decodes to the date and time that it packs, plus the hundredths of a second (0 to 199), and to None exactly when it packs no valid date and time.", "quantifier": "all 32-bit values and increments", "why_tests_cant": "stated for the whole domain", "anchors": ["dfir_ntfs/addons/exFAT.py:DecodeFATTimestamp"]}
{"id": "C80", "title": "A walk over an exFAT volume reports every reachable entry with its path, and nothing else", "statement": "When a walk ends without an exception, every entry of every directory that can be reached from the root (through entries whose clusters can be read, without going in circles) was reported, with the names of the directories on the way before its own; and everything that was reported is such an entry, or one of an orphaned directory. A directory is taken for an orphaned one only when its deleted entry can be reached from the root, its first cluster is in use again, and no directory that is entered from the root begins there. When the walk ends without an exception, and no entry that is not deleted is for a directory that begins there, all entries of such a directory that still begins like one were reported. Of several deleted entries for a directory with the same first cluster, one with the latest time of modification decides how it is read.", "quantifier": "all volumes", "why_tests_cant": "all directory graphs", "anchors": ["dfir_ntfs/addons/exFAT.py:FileSystemParser.walk", "dfir_ntfs/addons/exFAT.py:ExpandPath"]}
{"id": "C81", "title": "A walk over a FAT volume reports every reachable entry with its path, and nothing else", "statement": "When a walk ends without an exception, every entry of every directory that can be reached from the root (through entries whose clusters can be read, without going in circles) was reported, with the names of the directories on the way before its own, long names being preferred for directories; and everything that was reported is such an entry, or one of an orphaned directory. A directory is taken for an orphaned one only when its deleted entry can be reached from the root, its first cluster is in use again, and no directory that is entered from the root begins there. When the walk ends without an exception, and no entry that is not deleted is for a directory that begins there, all entries of such a directory that still begins like one were reported.", "quantifier": "all volumes", "why_tests_cant": "all directory graphs", "anchors": ["dfir_ntfs/addons/FAT.py:FileSystemParser.walk", "dfir_ntfs/addons/FAT.py:ExpandPath"]}
{"id": "C82", "title": "Opening an NTFS volume gives the $MFT file that the volume describes", "statement": "When a volume is opened, the resulting file is the $MFT file: its file record begins at the place in the boot sector, its data runs are the connected extents of the unnamed $DATA attribute in all the segments of that record, and those segments are the ones that the attribute list refers to, found in the file itself.", "quantifier": "all volumes and volume offsets", "why_tests_cant": "all contents of a volume", "anchors": ["dfir_ntfs/MFT.py:FileSystemParser"]}
{"id": "C83", "title": "The first record of an opened volume is the one that the boot sector points to", "statement": "When a volume is opened, the file record segment 0 of the resulting $MFT file is the segment at the place that the boot sector records.", "quantifier": "all volumes", "why_tests_cant": "all contents of a volume", "anchors": ["dfir_ntfs/MFT.py:FileSystemParser"]}
{"id": "C84", "title": "Opening a volume raises only exceptions of the boot sector and of the master file table", "statement": "Whatever a volume contains, opening it either succeeds or raises an exception of the boot sector or of the master file table.", "quantifier": "all volumes and volume offsets", "why_tests_cant": "all contents of a volume", "anchors": ["dfir_ntfs/MFT.py:FileSystemParser"]}
{"id": "C85", "title": "Every volume whose $MFT file can be found segment by segment is opened", "statement": "If the clusters of the $MFT file are in the volume, its extents are stored in order, and each of its segments lies in the clusters that the earlier ones describe, then opening the volume succeeds and gives this file.", "quantifier": "all volumes and volume offsets", "why_tests_cant": "all layouts of a fragmented $MFT file", "anchors": ["dfir_ntfs/MFT.py:FileSystemParser"]}
{"id": "C86", "title": "Merging gives every split attribute once, with the runs of all its extents in order", "statement": "The merged attributes of a file record are its resident attributes as they are stored, followed by one for each first extent of a nonresident attribute, with the data runs of all extents of the same type and name in the order of their VCNs. If the attributes cannot be read, the exception is the same as without merging.", "quantifier": "all file records", "why_tests_cant": "all layouts of the attributes", "anchors": ["dfir_ntfs/MFT.py:FileRecord.attributes"]}
{"id": "C87", "title": "Merged attributes agree with the data runs of a stream", "statement": "Merging yields an attribute with certain data runs for a stream exactly when asking for the data runs of this stream gives them.", "quantifier": "all file records and streams", "why_tests_cant": "all layouts of the attributes", "anchors": ["dfir_ntfs/MFT.py:FileRecord.attributes", "dfir_ntfs/MFT.py:FileRecord.get_data_runs"]}
{"id": "C88", "title": "Carved timestamps are in the image, do not overlap, and none with the same layout is missed", "statement": "Everything that is carved is a file control block in the image: the signature, the file reference, and plausible timestamps at the two positions, inside of one page. Blocks are reported in order, do not overlap, and every block with this layout at an even offset is reported or overlaps one that is.", "quantifier": "all images", "why_tests_cant": "all contents of an image", "anchors": ["dfir_ntfs/MFT.py:MetadataCarver.carve_fcb_timestamps"]}
{"id": "C89", "title": "The layout of carved blocks is the most frequent one, and an inconclusive guess is refused", "statement": "The two positions of timestamps are those that occur most often in the first 100 candidates. With less than 25 candidates, or if one of these positions occurs in less than 20 of them, ValueError is raised and nothing is reported.", "quantifier": "all images", "why_tests_cant": "all contents of an image", "anchors": ["dfir_ntfs/MFT.py:MetadataCarver.carve_fcb_timestamps"]}
{"id": "C90", "title": "Carving again gives the same result", "statement": "Carving the same image again with the same object gives what it gave before.", "quantifier": "all images and states of the object", "why_tests_cant": "all histories of calls", "anchors": ["dfir_ntfs/MFT.py:MetadataCarver.carve_fcb_timestamps"]}
{"id": "C91", "title": "A hex dump shows every byte at its place", "statement": "The dump of some bytes has a line for every 16 bytes, with their address, two hexadecimal digits per byte and the printable characters, each in its own column. Different data have different dumps.", "quantifier": "all byte strings", "why_tests_cant": "all contents and lengths", "anchors": ["ntfs_parser:hexdump"]}
{"id": "C92", "title": "A CSV listing can be read back exactly", "statement": "Whatever the fields of the rows contain (commas, quotation marks, line ends, any Unicode characters), decoding the UTF-8 file and reading it as CSV gives the rows that were written. Every name decoded from UTF-16 can be written.", "quantifier": "all lists of rows", "why_tests_cant": "all characters in names", "anchors": ["ntfs_parser:process_mft", "ntfs_parser:process_usn", "ntfs_parser:process_indx"]}
{"id": "C93", "title": "A timestamp is written as text that denotes exactly this moment", "statement": "The text of a timestamp denotes its date, time of day and microsecond in the Gregorian calendar, and texts compare as the timestamps do, for every timestamp that is decoded.", "quantifier": "all timestamps", "why_tests_cant": "all moments of about ten thousand years", "anchors": ["ntfs_parser:format_timestamp", "dfir_ntfs/Attributes.py:DecodeFiletime", "dfir_ntfs/Attributes.py:DecodeGUIDTime"]}
{"id": "C94", "title": "The fields of the values of attributes are decoded exactly", "statement": "For a value that stores given fields in the documented layout ($STANDARD_INFORMATION, $FILE_NAME, $OBJECT_ID, index entries and index roots, reparse points, EA and volume information, attribute lists), whatever follows it, each getter returns the field that is stored. Fields that a shorter (older) value does not have are reported as absent, and a timestamp that is cut off is never reported.", "quantifier": "all values of the fields and all trailing bytes", "why_tests_cant": "all field values", "anchors": ["dfir_ntfs/Attributes.py:StandardInformation", "dfir_ntfs/Attributes.py:DuplicatedInformation", "dfir_ntfs/Attributes.py:FileName", "dfir_ntfs/Attributes.py:ObjectID", "dfir_ntfs/Attributes.py:IndexEntry", "dfir_ntfs/Attributes.py:IndexRoot", "dfir_ntfs/Attributes.py:ReparsePoint", "dfir_ntfs/Attributes.py:EAInformation", "dfir_ntfs/Attributes.py:VolumeInformation", "dfir_ntfs/Attributes.py:AttributeList"]}
{"id": "C95", "title": "Timestamps from a partial update of $STANDARD_INFORMATION are those of the whole value", "statement": "When a log record holds some bytes of $STANDARD_INFORMATION from some offset on, each of the four timestamps is reported exactly when all its bytes are among these, and it is the one that the whole value has.", "quantifier": "all values, offsets and lengths", "why_tests_cant": "all offsets and lengths", "anchors": ["dfir_ntfs/Attributes.py:StandardInformationPartial"]}
{"id": "C96", "title": "The slack space of an index is exactly what follows the used part of each buffer", "statement": "For every index allocation, the slack space that is reported is what follows the used part of each valid index buffer, in order, except the parts that are too short to hold anything. No exception is raised.", "quantifier": "all contents of an index allocation", "why_tests_cant": "all contents", "anchors": ["dfir_ntfs/Attributes.py:IndexAllocation.get_slack"]}
{"id": "C97", "title": "The journal table has one row per record, with the path of the file it is about", "statement": "The table of a change journal has one row for each record in the journal, in order, with the fields of this record and with the path that the file table gives for the file with the recorded number and sequence number (never that of another file that has reused the number). No record is left out.", "quantifier": "all journals and file tables", "why_tests_cant": "all contents of a journal and of a file table", "anchors": ["ntfs_parser:process_usn"]}
{"id": "C98", "title": "The file table listing has the rows of every file record, made from this record", "statement": "The table of a master file table has, for each file record and in order, a row for each path of the file (or one without a path) whose columns (reference number, flags, LSN, path, timestamps, USN, size, alternate data streams) are those that the attributes of this record define, then a row for each entry of the index in this record and for each file name found in its slack space. No file record is left out.", "quantifier": "all master file tables", "why_tests_cant": "all contents of a file table", "anchors": ["ntfs_parser:process_mft"]}
{"id": "C99", "title": "The index table has the rows of the file names in all directory indexes", "statement": "The table of directory indexes of a volume has, for each file record and in order, a row for each file name in the index buffers of this directory and for each file name found in their slack space, with the recorded reference number, timestamps and size. The path of a row is in the directory that the file name records as its parent. No file record is left out.", "quantifier": "all volumes", "why_tests_cant": "all contents of a volume", "anchors": ["ntfs_parser:process_indx"]}
{"id": "C100", "title": "The report on a move table has every move, and nothing in it is ambiguous", "statement": "The text written for a move table has the section of the header, then a section for each move in the log, in order, with the machine name, the identifiers and the moments that the move stores. Two tables with different headers or moves never give the same text. The text can always be encoded. When an exception is raised, everything before it has been written.", "quantifier": "all contents of a move table", "why_tests_cant": "all contents of a move table", "anchors": ["ntfs_parser:process_movetable", "dfir_ntfs/MoveTable.py:DecodeString", "dfir_ntfs/MoveTable.py:LogEntry", "dfir_ntfs/MoveTable.py:Header"]}
{"id": "C101", "title": "The table of timestamps found in memory has one row per block found", "statement": "The table of a memory image has, for each block that is carved and in order of the offsets, one row with the possible reference and the timestamps that the block stores, and the texts of timestamps are ordered as these are. Blocks do not overlap, and no block with its timestamps at the guessed positions is left out, except one that overlaps with an earlier one. With too few blocks, ValueError is raised and there are no rows.", "quantifier": "all images", "why_tests_cant": "all contents of an image", "anchors": ["ntfs_parser:process_mem", "dfir_ntfs/MFT.py:MetadataCarver"]}
{"id": "C102", "title": "The table of a FAT volume has one row per entry that can be reached", "statement": "On a volume that opens as FAT12, FAT16 or FAT32, fat_parser writes the names of the columns and one row for each item of the walk, in order. Each row is that of an entry in a directory that can be reached from the root (or is orphaned), with the fields of this entry; its timestamps denote the recorded ones, and the cell of the short name can be read back to its bytes. Without an exception there is a row for every entry of every reachable directory. The first label that is not deleted is marked as the label of the volume, and no other entry is.", "quantifier": "all images, offsets and orders of sets", "why_tests_cant": "all contents of a volume", "anchors": ["fat_parser:format_timestamp", "fat_parser:format_boolean", "dfir_ntfs/addons/FAT.py:FileSystemParser.walk", "dfir_ntfs/addons/FAT.py:IsVolumeLabel"]}
{"id": "C103", "title": "The table of an exFAT volume has one row per entry that can be reached", "statement": "On a volume that opens as exFAT (and not as FAT), fat_parser writes the names of the columns and one row for each item of the walk, in order. Each row is that of an entry in a directory that can be reached from the root (or is orphaned), with the fields of this entry; its timestamps denote the recorded ones and the offsets from UTC are the recorded ones in minutes. Without an exception there is a row for every entry of every reachable directory.", "quantifier": "all images, offsets and orders of sets", "why_tests_cant": "all contents of a volume", "anchors": ["fat_parser:format_tz", "fat_parser:format_tz_item", "fat_parser:format_timestamp", "dfir_ntfs/addons/exFAT.py:FileSystemParser.walk"]}
{"id": "C104", "title": "A volume with a valid exFAT boot region is never listed as FAT", "statement": "When the main boot region of a volume is a consistent one of exFAT, fat_parser does not take the volume for FAT12, FAT16 or FAT32: it writes the table of the exFAT volume, or raises the exception that opening or walking it as exFAT raises.", "quantifier": "all images and offsets", "why_tests_cant": "all contents of a volume", "anchors": ["dfir_ntfs/addons/FAT.py:FileSystemParser", "dfir_ntfs/addons/FAT.py:BSBPB", "dfir_ntfs/addons/exFAT.py:FileSystemParser", "dfir_ntfs/addons/exFAT.py:BR"]}
{"id": "C105", "title": "The mounted file system is read-only, and each request is answered from the shadow copy alone", "statement": "Whatever requests were made before, the file system of vsc_mount answers a request in the same way. Its root directory has one file, image.raw, a regular file with the size of the selected shadow copy and with as many blocks as needed. Reading within this size gives the bytes of the shadow copy, reading from its end on gives nothing. Every request that would change something is refused with EROFS. Other names, inodes and handles lead to nothing.", "quantifier": "all volumes, storage volumes, stack positions and histories of requests", "why_tests_cant": "all histories of requests", "anchors": ["vsc_mount:VSCFS", "vsc_mount:VSCFS2", "vsc_mount:read", "vsc_mount:readdir", "vsc_mount:lookup", "vsc_mount:open", "vsc_mount:getattr", "dfir_ntfs/ShadowCopy.py:ShadowParser.read"]}
{"id": "C106", "title": "With the alternate fill, sectors that are not stored anywhere and sectors that were not changed are marked, and no other is", "statement": "When vsc_mount is told to use the alternate fill, each byte of a sector without data shows the word EMPTY, each byte of a sector that is read from its own place on the volume shows the word ORIGINAL (both filled up with spaces to 16 characters), and each other byte is that of the shadow copy.", "quantifier": "all volumes, stack positions and ranges within the shadow copy", "why_tests_cant": "all contents of a volume", "anchors": ["vsc_mount:VSCFS", "dfir_ntfs/ShadowCopy.py:ShadowParser.read"]}
{"id": "C107", "title": "The list of shadow copies has one line per shadow copy that is described, and these are the ones that can be selected", "statement": "For a volume that is neither that of NTFS nor that of ReFS, vsc_mount says that it is not valid. For one that is too short or has no start block, it says that shadow copies are disabled. Otherwise there is a line for each shadow copy described in the control blocks, in order, with its stack position and its moment. On a volume that has its own storage, selecting a stack position finds nothing exactly when it is not in this list, and the shadow copy found has the size that is recorded in this list.", "quantifier": "all volumes", "why_tests_cant": "all contents of a volume", "anchors": ["dfir_ntfs/ShadowCopy.py:ShadowParser.shadows", "dfir_ntfs/ShadowCopy.py:ShadowParser.select_shadow", "dfir_ntfs/ShadowCopy.py:StartBlock", "dfir_ntfs/ShadowCopy.py:ControlBlock"]}
{"id": "C108", "title": "The report on a log file describes every record, and lists every deleted file", "statement": "For a log file and a file table, ntfs_parser writes one section for each restart area and each log record that the parser yields, in order. A section has the recorded fields, the names of the operations, the target with its path in the file table, the offset in it, the clusters, the raw data, and the timestamps, names and journal records that the data stands for, and nothing else. At the end, the numbers of all files that were deleted are listed in the order of their records.", "quantifier": "all log files and file tables, and all orders of sets", "why_tests_cant": "all contents of a log file", "anchors": ["ntfs_parser:process_log", "ntfs_parser:process_restart_area", "ntfs_parser:process_log_record", "dfir_ntfs/LogFile.py:LogFileParser.parse_ntfs_records", "dfir_ntfs/LogFile.py:NTFSLogRecord"]}
{"id": "C109", "title": "The list of all file tables has the rows of the volume and of each of its shadow copies, tagged with their origin", "statement": "With --all-mft, a list that ends without an exception has the names of the columns, the rows for the file table of the volume with the tag \"main volume\" and, when shadow copies are enabled, the rows for the file table of each shadow copy that is described, in order: these rows are made from the data of this shadow copy and no other one, and carry its stack position. When an exception stops the list at a shadow copy, all the rows for the volume and for the shadow copies before it have been written.", "quantifier": "all volumes", "why_tests_cant": "all contents of a volume and of its shadow copies", "anchors": ["ntfs_parser:process_all_mft", "ntfs_parser:process_mft", "dfir_ntfs/ShadowCopy.py:ShadowParser.shadows", "dfir_ntfs/ShadowCopy.py:ShadowParser.select_shadow", "dfir_ntfs/ShadowCopy.py:ShadowParser.read", "dfir_ntfs/MFT.py:FileSystemParser"]}
{"id": "C110", "title": "The programs change only the output file, and write there exactly what was asked for", "statement": "However ntfs_parser and fat_parser end, a path that is not the last argument and does not lead to the same file leads to the same bytes as before. Command lines that are not in the usage text, and offsets that are not numbers, change nothing. When a file cannot be opened, nothing is changed. Otherwise, when the output is none of the inputs, the output file has exactly the rows or the text for the bytes of the inputs, encoded as UTF-8, up to an exception if there is one, and the inputs stay as they are.", "quantifier": "all command lines, file systems and contents of files", "why_tests_cant": "all command lines and all contents of files", "anchors": ["ntfs_parser:process_mft", "ntfs_parser:process_usn", "ntfs_parser:process_log", "ntfs_parser:process_mem", "ntfs_parser:process_movetable", "ntfs_parser:process_indx", "ntfs_parser:process_all_mft", "ntfs_parser:print_usage", "fat_parser:print_usage"]}
{"id": "C111", "title": "The marks of a FAT volume are the documented bits, and an allocated cluster is one with a non-zero entry", "statement": "A cluster within a complete file allocation table is said to be allocated exactly when its entry is not zero, and nothing is said of other clusters. The media byte is the first byte of the table. On FAT16 and FAT32 the volume is said to be dirty, and to have had errors, exactly when the documented bits of entry 1 are clear; nothing is said for FAT12. The two marks in the boot sector are its two documented bits.", "quantifier": "all complete file allocation tables, cluster numbers and boot sectors", "why_tests_cant": "all contents of a table", "anchors": ["dfir_ntfs/addons/FAT.py:FAT.is_allocated", "dfir_ntfs/addons/FAT.py:FAT.get_bpb_media", "dfir_ntfs/addons/FAT.py:FAT.is_volume_dirty", "dfir_ntfs/addons/FAT.py:FAT.are_hard_errors_detected", "dfir_ntfs/addons/FAT.py:BSBPB.is_volume_dirty"]}
{"id": "C112", "title": "The fields of the boot sectors of FAT volumes are decoded exactly", "statement": "For every boot sector of FAT12, FAT16 or FAT32 that is made of the documented fields with any values that fit, each question about a field gets the value of this field (or is refused, when the value is not an allowed one). The same holds of the information sector of FAT32, which is refused exactly when one of its three signatures is wrong.", "quantifier": "all values of all fields", "why_tests_cant": "all values of all fields", "anchors": ["dfir_ntfs/addons/FAT.py:BSBPB", "dfir_ntfs/addons/FAT.py:FSINFO"]}
{"id": "C113", "title": "The fields of the boot region of exFAT volumes are decoded exactly", "statement": "For every boot region that is made of the documented fields with any values that fit and with sectors of any allowed size, each question about a field gets the value of this field: those of the boot sector, the signatures of the extended boot sectors, and the OEM parameters.", "quantifier": "all values of all fields, and all sector sizes", "why_tests_cant": "all values of all fields", "anchors": ["dfir_ntfs/addons/exFAT.py:BR", "dfir_ntfs/addons/exFAT.py:BR.get_ebs_signature", "dfir_ntfs/addons/exFAT.py:BR.get_oem_guid", "dfir_ntfs/addons/exFAT.py:BR.get_oem_flash_parameters"]}
{"id": "C114", "title": "Attributes on FAT and exFAT volumes are named exactly, and a doubtful type is announced", "statement": "The text for the attributes of a file has the name of each documented bit that is set, by increasing value, and nothing else; it determines these bits. The warning about the number of clusters is given exactly when the specification, Windows, FreeBSD and the books mentioned in the code do not agree on whether such a volume is FAT12 or FAT16.", "quantifier": "all attribute values and all numbers of clusters", "why_tests_cant": "all values", "anchors": ["dfir_ntfs/addons/FAT.py:ResolveFileAttributes", "dfir_ntfs/addons/FAT.py:IsFileSystemUnusual12Or16", "dfir_ntfs/addons/exFAT.py:ResolveFileAttributes"]}
{"id": "C115", "title": "The blocks of the shadow copy metadata are decoded exactly", "statement": "For every start block, control block, location description, bitmap block and application information that is made of its fields, with any values that fit, the block is accepted and each question about a field gets the value of this field. The items of a control block are the slots up to the end, in order, without the free ones; the items of a location description are its runs up to the end, in order.", "quantifier": "all values of all fields, and all numbers of slots and runs", "why_tests_cant": "all values of all fields", "anchors": ["dfir_ntfs/ShadowCopy.py:ShadowBlock", "dfir_ntfs/ShadowCopy.py:StartBlock", "dfir_ntfs/ShadowCopy.py:ControlBlock.items", "dfir_ntfs/ShadowCopy.py:ControlBlockItem2", "dfir_ntfs/ShadowCopy.py:ControlBlockItem3", "dfir_ntfs/ShadowCopy.py:ApplicationInformation", "dfir_ntfs/ShadowCopy.py:Bitmap", "dfir_ntfs/ShadowCopy.py:LocationDescription.get_location_description_items"]}
{"id": "C116", "title": "Names stored in UTF-16 are shown exactly", "statement": "Every text that is stored in UTF-16 as the label of a volume, the name of a file or of a stream, a name in a dump of the log file or the name of a partition is shown as this text, characters outside of the basic plane included. A name shown without a replacement character is exactly the stored one, so that two names that are stored differently are never shown alike, and a part of a stream found under such a name belongs to the stream with this stored name. No partition name is shown for a field that is not UTF-16.", "quantifier": "all texts, and all byte strings in place of a name", "why_tests_cant": "all names", "anchors": ["dfir_ntfs/Attributes.py:FileName.get_file_name", "dfir_ntfs/Attributes.py:VolumeName.get_name", "dfir_ntfs/MFT.py:FileRecord.get_data_runs", "dfir_ntfs/PartitionTable.py:GPT", "dfir_ntfs/LogFile.py:AttributeNamesDumpParser.find_name_by_index"]}
{"id": "C117", "title": "The fields of the structures of a log file are decoded exactly, and so is the list of its clients", "statement": "For every restart area, client record, log record page, log record header, restart area of NTFS and entry of the table of open attributes (both versions) that is made of its fields with any values that fit, each question about a field gets the value of this field. The clients of a restart area are the ones in its array, in order and with their names. A restart area of NTFS that ends early has no value for the fields after its end.", "quantifier": "all values of all fields, all numbers of clients, and all lengths of a restart area of NTFS", "why_tests_cant": "all values of all fields", "anchors": ["dfir_ntfs/LogFile.py:RestartArea", "dfir_ntfs/LogFile.py:RestartArea.clients", "dfir_ntfs/LogFile.py:ClientRecord", "dfir_ntfs/LogFile.py:LogRecordPage", "dfir_ntfs/LogFile.py:LogRecordHeader", "dfir_ntfs/LogFile.py:NTFSRestartArea", "dfir_ntfs/LogFile.py:OpenAttributeEntry1", "dfir_ntfs/LogFile.py:OpenAttributeEntry0"]}
{"id": "C118", "title": "The fields of the records of a change journal and of a move table are decoded exactly", "statement": "Every record of a change journal (versions 2, 3 and 4) that is made of its fields, with any values that fit, any name and any ranges, is accepted, and each question about a field gets the value of this field, the 128-bit references, the name and the ranges included. The same holds of the header of a move table, of the entries and the footer of each sector of its log; the entries are listed in order.", "quantifier": "all values of all fields, all names, and all numbers of ranges and entries", "why_tests_cant": "all values of all fields", "anchors": ["dfir_ntfs/USN.py:GetUsnRecord", "dfir_ntfs/USN.py:USN_RECORD_V2_OR_V3", "dfir_ntfs/USN.py:USN_RECORD_V4", "dfir_ntfs/USN.py:USN_RECORD_V4.extents", "dfir_ntfs/MoveTable.py:Header", "dfir_ntfs/MoveTable.py:LogSectorFooter", "dfir_ntfs/MoveTable.py:LogEntry", "dfir_ntfs/MoveTable.py:LogSector.log_entries"]}
{"id": "C119", "title": "A file table that cannot be read to its end is not listed at all", "statement": "When the file table of a volume is accepted, all of it can be read: its contents give the same table, and everything that is read later is a part of these contents. When a byte of the $MFT of a volume is not in the image (the image is cut short), the lists of all file tables and of the index entries have not one row, not even the header, and the program stops with an exception.", "quantifier": "all volumes and all file objects, with reads that fail or give less than was asked for", "why_tests_cant": "all places where an image can end", "anchors": ["dfir_ntfs/MFT.py:MasterFileTableParser", "dfir_ntfs/MFT.py:FragmentedFile.read", "dfir_ntfs/MFT.py:FileSystemParser", "ntfs_parser:process_mft", "ntfs_parser:process_all_mft", "ntfs_parser:process_indx"]}
{"id": "C120", "title": "The headers of NTFS structures are decoded exactly", "statement": "For every NTFS boot sector, header of a file record segment, header of an index buffer and master boot record that is made of its fields with any values that fit, each question about a field gets the value of this field, or is refused when the value is not an allowed one: the sizes, the clusters of the file table and of its mirror, the serial number and the presence of boot code; the sequence numbers, counts, flags, sizes, base segment and number of a file record segment, with its protection applied or not; the block and the header of the node of an index buffer; the signature of a disk. The media type of an exFAT volume is the lowest byte of its table.", "quantifier": "all values of all fields", "why_tests_cant": "all values of all fields", "anchors": ["dfir_ntfs/BootSector.py:BootSector", "dfir_ntfs/MFT.py:FileRecordSegment", "dfir_ntfs/Attributes.py:IndexBuffer", "dfir_ntfs/Attributes.py:IndexHeader", "dfir_ntfs/PartitionTable.py:MBR.read_mbr", "dfir_ntfs/addons/exFAT.py:FAT.get_media_type"]}
{"id": "C121", "title": "The text of a log record says what the record does", "statement": "The text of every accepted log record of NTFS (its conversion to a string) has the LSN, the names of both operations, the lengths of the redo and of the undo data, a sign that says whether these data are equal, the target (the number of a file record segment, or the reference of a file with the name of an attribute) and the offset in it. Log records with the same text have the same LSN, operations and lengths.", "quantifier": "all contents of a log record and all tables of open attributes", "why_tests_cant": "all contents of a log record", "anchors": ["dfir_ntfs/LogFile.py:NTFSLogRecord", "dfir_ntfs/LogFile.py:ResolveNTFSOperation", "dfir_ntfs/LogFile.py:NTFSLogRecord.calculate_mft_target_number", "dfir_ntfs/LogFile.py:NTFSLogRecord.calculate_offset_in_target"]}
{"id": "C122", "title": "Opening a log file ends normally or with an exception that says what is wrong", "statement": "For every file, opening it as a log file ends normally or with one of the declared exceptions of log files; a file is reported as an empty log file exactly when both restart pages consist of bytes 0xFF, and an unsupported version is reported only when a restart page has one.", "quantifier": "all files, of all lengths", "why_tests_cant": "all contents of the restart pages", "anchors": ["dfir_ntfs/LogFile.py:LogFileParser", "dfir_ntfs/LogFile.py:RestartPage", "dfir_ntfs/LogFile.py:RestartArea", "dfir_ntfs/LogFile.py:LogFileException", "dfir_ntfs/LogFile.py:EmptyLogFileException"]}
{"id": "C123", "title": "Opening an exFAT volume ends normally or with an exception that says what is wrong", "statement": "For every image and offset, opening an exFAT volume ends normally or with one of the exceptions of exFAT volumes (or with ValueError for a size that is too small); listing any directory ends normally or with the exception of directories.", "quantifier": "all images, offsets and contents of directories", "why_tests_cant": "all contents of an image", "anchors": ["dfir_ntfs/addons/exFAT.py:FileSystemParser", "dfir_ntfs/addons/exFAT.py:BR", "dfir_ntfs/addons/exFAT.py:DirectoryEntries", "dfir_ntfs/addons/exFAT.py:FAT"]}
{"id": "C124", "title": "Reading a partition table ends normally or with ValueError", "statement": "For every disk and sector size, opening a partition table ends normally or with ValueError (which tells a program that there is no such table), exactly when the sector size is not a multiple of 512 or the disk is too small; reading its header and its partitions ends normally or with ValueError too. Reading the partitions of a master boot record, logical partitions included, raises nothing.", "quantifier": "all disks and all sector sizes", "why_tests_cant": "all contents of a disk", "anchors": ["dfir_ntfs/PartitionTable.py:GPT.read_gpt_header", "dfir_ntfs/PartitionTable.py:GPT.read_gpt_partitions", "dfir_ntfs/PartitionTable.py:MBR.read_mbr", "dfir_ntfs/PartitionTable.py:MBR.read_mbr_partitions", "dfir_ntfs/PartitionTable.py:MBR.read_ebr_partitions"]}
{"id": "C125", "title": "A file is opened as a file table exactly when its volume record says so", "statement": "A file is opened as a file table exactly when it begins with FILE, its first segment gives the segment size 1024 or 4096, and the segment 3 is valid and has a volume information attribute of the version 3.1 or a later minor version before any resident index allocation attribute; segments other than 3 do not matter, and asking for the first pass makes no difference. All exceptions are those of file tables, but for a volume record with a resident index allocation attribute (AttributeError) or a short volume information attribute (struct.error).", "quantifier": "all files", "why_tests_cant": "all contents of a file", "anchors": ["dfir_ntfs/MFT.py:MasterFileTableParser.__init__", "dfir_ntfs/MFT.py:MasterFileTableParser.check_ntfs_version", "dfir_ntfs/MFT.py:MasterFileTableParser.execute_first_pass"]}
{"id": "C126", "title": "A volume is opened as FAT exactly when its boot sector describes one", "statement": "A volume is opened as FAT12, FAT16 or FAT32 exactly when its size, if given, is at least 4096, it begins at a multiple of 512, and its boot sector is complete and has usable fields. A volume that is not opened is refused with one of the exceptions that make a program try exFAT, but for a size that is too small (ValueError), an offset beyond 2^63 (OverflowError), a FAT32 volume of another version (NotImplementedError), and a boot sector without a count of sectors or without a size of the table (TypeError).", "quantifier": "all images, offsets and sizes", "why_tests_cant": "all contents of a boot sector", "anchors": ["dfir_ntfs/addons/FAT.py:FileSystemParser", "dfir_ntfs/addons/FAT.py:BSBPB", "dfir_ntfs/addons/FAT.py:GetCountOfClusters", "dfir_ntfs/addons/FAT.py:FAT"]}
{"id": "C127", "title": "Opening, selecting and reading a shadow copy ends with an exception that says what is wrong", "statement": "For every volume, opening it with its shadow copies and selecting one of them ends normally (when it ends, see C44) or with one of the exceptions of shadow copies, and with NotImplementedError exactly for volumes whose shadow copies are on another volume than the one that is given; no other exception is raised by these. Reading a selected shadow copy ends normally, or with ValueError when the metadata leads to something that is not a block of the volume.", "quantifier": "all volumes, offsets and keys of shadow copies", "why_tests_cant": "all contents of a volume", "anchors": ["dfir_ntfs/ShadowCopy.py:ShadowParser", "dfir_ntfs/ShadowCopy.py:ShadowParserTwoVolumes", "dfir_ntfs/ShadowCopy.py:ControlBlock", "dfir_ntfs/ShadowCopy.py:StartBlock"]}
{"id": "C128", "title": "What is printed about an attribute shows its fields", "statement": "For every attribute value that has all its fields, printing the information about it ends normally, and the lines show the values of the fields, in hexadecimal, in decimal or as a moment (None for a moment that cannot be represented), of $STANDARD_INFORMATION, $FILE_NAME, $OBJECT_ID, $ATTRIBUTE_LIST (two lines for each entry), $VOLUME_NAME, $VOLUME_INFORMATION, $INDEX_ROOT (with the file names in it), $INDEX_ALLOCATION, $REPARSE_POINT, $EA_INFORMATION, $EA (three lines for each extended attribute; a name that is not UTF-8 has a replacement character), and of the metadata of WSL; of the other attributes, the length. Values with the same lines have the same fields. A shorter value leads to struct.error, after lines that are also those of a longer value.", "quantifier": "all values of attributes, of all lengths", "why_tests_cant": "all contents of an attribute", "anchors": ["dfir_ntfs/Attributes.py:StandardInformation.print_information", "dfir_ntfs/Attributes.py:FileName.print_information", "dfir_ntfs/Attributes.py:ObjectID.print_information", "dfir_ntfs/Attributes.py:AttributeList.print_information", "dfir_ntfs/Attributes.py:IndexRoot.print_information", "dfir_ntfs/Attributes.py:EA.print_information", "dfir_ntfs/Attributes.py:ReparsePoint.print_information", "dfir_ntfs/WSL.py:LXATTRB.print_information"]}
{"id": "C129", "title": "What a parser reads depends only on the last shadow copy that it selected", "statement": "For every history of calls of a parser of shadow copies (selections that succeed or fail, seeks, reads), a selection ends as it would in a parser that was just opened, and if it succeeds, all the calls after it get the same answers as they would in a parser that was just opened and made this selection only. As long as no selection has succeeded, seek, tell and read raise ValueError (and a read with debug_fill NotImplementedError, with two volumes).", "quantifier": "all volumes, all histories of calls, all keys", "why_tests_cant": "all histories of calls", "anchors": ["dfir_ntfs/ShadowCopy.py:ShadowParser.select_shadow", "dfir_ntfs/ShadowCopy.py:ShadowParser.read", "dfir_ntfs/ShadowCopy.py:ShadowParser.seek", "dfir_ntfs/ShadowCopy.py:ShadowParser.tell", "dfir_ntfs/ShadowCopy.py:ShadowParserTwoVolumes.select_shadow"]}
{"id": "C130", "title": "A selection of a shadow copy that fails changes nothing", "statement": "When the selection of a shadow copy raises an exception, the calls after it get the answers that they would have got without it: the shadow copy that was selected before stays selected and is read as before.", "quantifier": "all volumes, all states of a parser, all keys", "why_tests_cant": "all histories of calls and all damaged volumes", "anchors": ["dfir_ntfs/ShadowCopy.py:ShadowParser.select_shadow", "dfir_ntfs/ShadowCopy.py:ShadowParser.translate_exact_offset", "dfir_ntfs/ShadowCopy.py:ShadowParserTwoVolumes.select_shadow"]}
{"id": "C131", "title": "Reading the header of a GUID partition table again gives the same header", "statement": "Every call that reads the header of a GUID partition table gives, on one object, what the first call gave: the same header, from the same place, or no header.", "quantifier": "all disks, all sector sizes and all numbers of calls", "why_tests_cant": "all contents of a disk and all histories of calls", "anchors": ["dfir_ntfs/PartitionTable.py:GPT.read_gpt_header", "dfir_ntfs/PartitionTable.py:GPT.read_gpt_header_internal"]}
{"id": "C132", "title": "Iterating over the records of a log file again gives the same records", "statement": "An iteration over the records of a log file gives, whatever other iterations were made with the same parser before it (with or without recovery of the log data, to the end or not), what it would give with a new parser: the same records, decoded with the same cluster size, with the same tables attached, and the same exception, if any.", "quantifier": "all log files and all histories of iterations", "why_tests_cant": "all histories of iterations", "anchors": ["dfir_ntfs/LogFile.py:LogFileParser.parse_ntfs_records", "dfir_ntfs/LogFile.py:LogFileParser.collect_lsns", "dfir_ntfs/LogFile.py:LogFileParser.prepare_for_writes", "dfir_ntfs/LogFile.py:LogFileParser.discard_changes"]}
{"id": "C133", "title": "The first pass over a file table can be executed later and again", "statement": "For every file table, a parser that is created without the first pass gives, when the first pass is executed, the results of a parser that is created with it; before that, no record has child segments and the numbers of child segments are refused. Executing the first pass again ends normally, gives the same statistics, and changes nothing in what the parser gives.", "quantifier": "all file tables, all numbers of passes, all look-ups and lists of records", "why_tests_cant": "all contents of a table and all histories of calls", "anchors": ["dfir_ntfs/MFT.py:MasterFileTableParser.__init__", "dfir_ntfs/MFT.py:MasterFileTableParser.execute_first_pass", "dfir_ntfs/MFT.py:MasterFileTableParser.get_file_record_by_number", "dfir_ntfs/MFT.py:MasterFileTableParser.file_records"]}
{"id": "C134", "title": "Objects that share one file object do not disturb each other", "statement": "For every program (of one thread) that has several files of a volume open on one file object, every order of its calls, and every use that others make of the file object between the calls, each file answers its calls as if it were alone; so do several parsers of shadow copies on the file objects of their volumes. In the same way a list of the file records of a table is the same, whatever is done with its file object between the records, and so is the result of every look-up.", "quantifier": "all volumes, files, tables, and all orders of calls", "why_tests_cant": "all interleavings of calls and all positions of the file object", "anchors": ["dfir_ntfs/MFT.py:FragmentedFile.seek", "dfir_ntfs/MFT.py:FragmentedFile.read", "dfir_ntfs/MFT.py:FragmentedFile.read_virtual_cluster", "dfir_ntfs/MFT.py:MasterFileTableParser.file_records", "dfir_ntfs/MFT.py:MasterFileTableParser.get_file_record_by_number", "dfir_ntfs/ShadowCopy.py:ShadowParser.read", "dfir_ntfs/ShadowCopy.py:ShadowParser.read_at_exact_offset", "dfir_ntfs/ShadowCopy.py:ShadowParserTwoVolumes.read"]}
