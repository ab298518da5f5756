# Design of the formal model of dfir_ntfs

This document says what is modelled in Lean 4, how each property of
`properties.jsonl` is stated and proved, what is trusted, and what was found
to be false about the code.

## 1. Approach

* The model is *shallow*: each modelled Python function becomes one total,
  computable Lean function that mirrors it branch by branch.  Exceptions are
  values (`Except Exc α`, `Exc` has one constructor per Python exception
  class that matters).  Internal errors (`TypeError`, `IndexError`,
  `struct.error`, ...) are modelled too, so "never fails with an internal
  error" is a provable (or refutable) statement.
* A `bytes` object is a `List UInt8`.  Python slicing with non-negative bounds
  is `slice b i j = (b.drop i).take (j - i)` (it clamps, as Python does).
  `struct.unpack` of little-endian integers is `leNat`.
* Python integers are `Nat` or, when they can be negative, `Int`.
* A file object opened for reading is its contents (`List UInt8`); `seek` +
  `read(n)` is `slice f off (off + n)`; short reads at end of file are short
  slices.  I/O errors of the operating system are not modelled.
* `while` loops become structural recursion on a list, well-founded recursion
  with the measure proved in Lean, or (when the loop may really diverge)
  a step function iterated with fuel, with the divergence stated as a theorem.
* A generator (`yield`) is the list of the items it yields, paired with the
  exception that ended it, if any.

## 2. Layout of `/verif/lean/Verif`

* `Basic/`   bytes, slices, integers, exceptions.
* `Model/`   the model, one file per Python file (or class). Every definition
             cites file and lines.
* `Spec/`    small independent specifications (encoders, relations,
             "what the bytes mean") written without reference to the model.
* `Proof/`   helper lemmas.
* `Props/`   the property theorems, named `Cxx_...`, each with an `example`
             that shows its hypotheses are met by a concrete, non-trivial case.

## 3. Trusted base

* Lean 4.33.0's kernel, with the axioms `propext`, `Classical.choice` and
  `Quot.sound` only (checked per theorem by `vcheck`).  No `sorry`, no own
  axioms, no `native_decide`, no `bv_decide`.
* The correspondence between the Python text and the Lean definitions, which is
  by reading: the cited lines next to every definition are there to be
  compared.
* The specifications in `Spec/`, which are meant to be read.

## 4. Plan per property

| id | property | modelled in | how it is proved |
|---|---|---|---|
| C01 | File references encode and decode losslessly | `Model/MFT/Reference` | `omega` on shifts/masks turned into div/mod |
| C02 | Mapping pairs decode back to the run list they encode | `Model/MFT/MappingPairs`, encoder in `Spec/` | induction on the run list, signed little-endian round trip lemma |
| C03 | The mapping pairs decoder accepts only well-formed encodings | same | functional induction on the decoder: success implies an `Encodes` derivation |
| C04 | Decoded runs never point before the start of the volume | same | expected to be FALSE (negative cumulative LCN is accepted): refutation by witness, partial theorem about when it holds |
| C05 | Update sequence array round trip for file records | `Model/MFT/FileRecordSegment`, protector in `Spec/` | sector-wise induction |
| C06 | Torn file records are rejected | same | invariant of the fix-up loop |
| C07 | Accepted file records have a sane header | same | branch analysis of the constructor |
| C08 | Attribute enumeration stays inside the used part of the record | same (`attributes`) | well-founded recursion on the position, invariant over yielded items |
| C09 | Attribute enumeration finds every attribute of a well-formed record | same, serializer of attributes in `Spec/` | induction on the list of attributes |
| C10 | Slack of a record is exactly the part after its used bytes | same | append/slice algebra |
| C11 | Data runs of a file are assembled in VCN order without gaps | `Model/MFT/FileRecord` | permutation invariance of the sort by lowest VCN, induction over extents |
| C12 | Reading a fragmented file returns the bytes its runs describe | `Model/MFT/FragmentedFile`, `Spec` = content function of the virtual file | induction on clusters read |
| C13 | Reads of a fragmented file never go past end of file | same | expected FALSE for explicit sizes; witness + partial theorem for `read()`/sizes inside the file |
| C14 | Splitting a read does not change the data | same | corollary of the content characterisation |
| C15 | Seeking is exact and failure-atomic | same | case analysis |
| C16 | Looking up a record by reference honours the sequence number | `Model/MFT/Parser` | branch analysis |
| C17 | Loading a record with extension records terminates | same | structure of the recursion (depth flag), Lean termination |
| C18 | Path building terminates and never loops | same (`build_full_paths`) | measure: unvisited records |
| C19 | Built paths follow the recorded parents | same, relation `ParentChain` in `Spec/` | induction on the walk |
| C20 | A file found by path really has that path | same (`get_file_record_by_path`) | induction on components |
| C21 | Slack carving yields only plausible records and terminates | `Model/MFT/Slack` | well-founded recursion, invariant on hits |
| C22 | Attribute list parsing is exact and total | `Model/Attributes` | serializer in `Spec/`, induction on entries |
| C23 | Index entries are enumerated completely and safely | same | same |
| C24 | Extended attributes parse back what was stored | same | same |
| C25 | Index buffers: fix-up round trip and torn write detection | same | as C05/C06 |
| C26 | Decoded FILETIME values are exact to the microsecond | same, IEEE double division modelled by exact integer rounding | expected FALSE (double rounding above 2^53); witness + error bound as partial theorem |
| C27 | File attribute flags resolve exactly | same | the flag table is finite, the value is not: bit-wise argument for all values |
| C28 | Change journal scan yields only valid, ordered, non-overlapping records | `Model/USN` | well-founded recursion on the position, invariant on yielded offsets |
| C29 | Change journal scan finds every record of a well-formed journal | same | induction on the layout |
| C30 | Reason and source flags are reported without loss | same | fold invariant: named bits + leftover = value |
| C31 | USN records: fields and name stay inside the record | same | branch analysis of constructors |
| C32 | LSNs and file offsets correspond one to one | `Model/LogFile/Lsn` | div/mod algebra with symbolic number of bits |
| C33 | Log pages: fix-up round trip and torn write detection | `Model/LogFile/Pages` | as C05/C06 |
| C34 | Every LSN reported exists in the log | `Model/LogFile/Collect` | invariant of the collection loops |
| C35 | Replaying the log never modifies the input file | `Model/LogFile/Overlay` | history induction over write/read/discard operations |
| C36 | The most recent tail page copy wins | same | case analysis |
| C37 | Log record data spanning pages is reassembled exactly | `Model/LogFile/ClientData` | measure: bytes left, induction on pages |
| C38 | The newest valid restart page is used | `Model/LogFile/Parser` | branch analysis |
| C39 | Redo and undo data of a log record stay inside the record | `Model/LogFile/Record` | slice bounds |
| C40 | Dumped attribute name and open attribute tables parse safely and completely | same | serializer + induction |
| C41 | A shadow copy block is translated into 32 sectors with a fixed precedence | `Model/ShadowCopy/Translate` | branch analysis with declarative precedence in `Spec/` |
| C42 | Reading a shadow copy is position-wise exact | `Model/ShadowCopy/Read` | induction on blocks |
| C43 | Reads of a shadow copy stop at the volume size | same | expected FALSE for explicit sizes when the volume size is not a multiple of 16 KiB; witness + partial theorem |
| C44 | Opening a volume with shadow copies terminates | `Model/ShadowCopy/Chains` | expected FALSE (no loop detection): divergence theorem for a cyclic chain, termination for acyclic chains |
| C45 | Forwarded blocks are resolved as recorded | `Model/ShadowCopy/DiffArea` | fold invariant over entries |
| C46 | An accepted GPT is internally consistent | `Model/PartitionTable` | branch analysis |
| C47 | A damaged primary GPT falls back to the backup | same | branch analysis over the three header candidates |
| C48 | GPT partitions are listed exactly | same | induction on the array |
| C49 | Logical partitions: chain walk terminates and is exact | same | measure: LBAs not visited yet |
| C50 | Boot sector geometry is consistent | `Model/BootSector` | branch analysis |
| C51 | Move tables: entries are decoded exactly | `Model/MoveTable` | induction on slots |
| C52 | WSL extended attributes parse back what was stored | `Model/WSL` | serializer + induction |
| C53 | FAT type is decided by the cluster count alone | `Model/FAT/BootSector` | branch analysis |
| C54 | An unsupported boot sector is always rejected with BootSectorException | same | expected FALSE (`None` arithmetic gives TypeError): witness + partial theorem |
| C55 | FAT entries are read exactly | `Model/FAT/Table`, packer in `Spec/` | slice/bit algebra |
| C56 | Cluster chains terminate and are followed exactly | same | measure: clusters not in the chain; invariant |
| C57 | Reading a FAT chain returns the clusters in order, cut to the size | `Model/FAT/Volume` | induction on the chain |
| C58 | The short name checksum detects any single changed character | `Model/FAT/Names` | injectivity of the rotate-and-add step |
| C59 | Short name validation and parsing agree with the 8.3 rules | same | branch analysis |
| C60 | Long file names are reassembled exactly | `Model/FAT/Directory`, LFN writer in `Spec/` | induction on entries |
| C61 | Directory listing accounts for entries and reports deletion correctly | same | induction on slots |
| C62 | FAT dates and times decode exactly | `Model/FAT/DateTime` | calendar validity as a decidable predicate, algebra over fields |
| C63 | Walking a FAT volume terminates | `Model/FAT/Walk` | measure: clusters not on the stack |
| C64 | Walking a FAT volume does not fail on damaged long names | same | expected FALSE (`OrphanLongEntry(None)`): witness + partial theorem |
| C65 | An accepted exFAT boot region is consistent | `Model/ExFAT/BootRegion` | branch analysis |
| C66 | exFAT checksums detect any single changed byte | same | injectivity of rotate-and-add over the byte stream |
| C67 | exFAT backup boot region is used when the main one is damaged | same | branch analysis over three candidates |
| C68 | exFAT cluster chains terminate and are followed exactly | `Model/ExFAT/Table` | as C56 |
| C69 | Allocated exFAT entry sets are reported only when their checksum holds | `Model/ExFAT/Directory` | invariant of the enumeration |
| C70 | Reported exFAT names contain no path separators or forbidden characters | same | expected FALSE (truncated names bypass the check): witness + partial theorem |
| C71 | exFAT allocation bitmap lookups are exact | `Model/ExFAT/Volume` | bit algebra |
| C72 | Walking an exFAT volume terminates | same | as C63 |
| C73 | A damaged subdirectory does not abort an exFAT walk | same | expected FALSE (size not a multiple of 512): witness + partial theorem |
| C74 | exFAT time zones decode to the signed offset | same | finite domain, whole-domain decision |
| C75 | Every base record of the table is enumerated once, in order | `Model/MFT/Parser` (`file_records`) | induction over the record numbers, agreement with lookup by number |
| C76 | Tail copies ("fast pages") are used exactly when they are newer | `Model/LogFile/Pages` | invariant of the page loop |
| C77 | The open attribute table dump decodes to the entries in it | `Model/LogFile/Records` | induction on slots |
| C78 | Log records are paired with the table dumps in force | `Model/LogFile/Client` | expected FALSE (dumps of different checkpoints are mixed): witness + partial theorem |
| C79 | exFAT timestamps decode exactly | `Model/ExFAT/Directory` | field algebra, as C62 |
| C80 | An exFAT walk reports exactly the files reachable from the root | `Model/ExFAT/Walk`, reachability in `Spec/ExFATWalk` | Hoare-style invariant over the walk, sound and complete |
| C81 | A FAT walk reports exactly the files reachable from the root | `Model/FAT/Walk`, reachability in `Spec/FATWalk` | as C80 |
| C82 | Opening an NTFS volume gives the `$MFT` file that the volume describes | `Model/MFT/FileSystem`, what the file is in `Spec/FileSystem` | invariant over the loop that loads the segments: reading through some of the runs agrees with reading through all of them |
| C83 | Record 0 of an opened volume is the one that the boot sector points to | as C82 | expected FALSE (the two places are not compared): witness + partial theorem |
| C84 | Opening raises only boot sector and master file table exceptions | as C82 | expected FALSE: four witnesses + partial theorem that lists every exception |
| C85 | Every volume whose `$MFT` file can be found segment by segment is opened | as C82, `Bootstraps` in `Spec/FileSystem` | totality of reads inside the known clusters, induction over the attribute list |
| C86 | Merging gives every split attribute once, with the runs of all its extents in order | `Model/MFT/FileSystem`, `Merges` in `Spec/MergedAttributes` | induction over the attributes |
| C87 | Merged attributes agree with the data runs of a stream | as C86 and C11 | both sorted by VCN, uniqueness of the sorted list; two witnesses against the converse |
| C88 | Carved timestamps are in the image, do not overlap, and none with the same layout is missed | `Model/MFT/Carver`, `Block` and `Reported` in `Spec/Carver` | the scan computes the one list that is `Reported`, induction over its pages |
| C89 | The layout of carved blocks is the most frequent one, and an inconclusive guess is refused | as C88, `MostFrequent` | counting dictionary as a list of first occurrences |
| C90 | Carving again gives the same result | as C88 | case analysis with C89; witness pages |
| C91 | A hex dump shows every byte at its place | `Model/Scripts/Text`, `IsDumpLine` in `Spec/Text` | induction over the lines; columns determine the bytes |
| C92 | A CSV listing can be read back exactly | as C91, a CSV reader and a UTF-8 decoder in `Spec/Text` | the reader undoes the writer, induction over fields and rows |
| C93 | A timestamp is written as text that denotes exactly this moment | as C91, calendar as sums of month and year lengths in `Spec/Text` | periods of 400, 100, 4 and 1 years; lexicographic order |
| C94 | The fields of the values of attributes are decoded exactly | `Model/AttributeFields`, structures with `encode` in `Spec/AttributeFields` | slices of concatenations, little-endian round trip |
| C95 | Timestamps from a partial update of $STANDARD_INFORMATION are those of the whole value | as C94 | the four offsets, slices of slices |
| C96 | The slack space of an index is exactly what follows the used part of each buffer | as C94, buffers of C25 | induction over the buffers |
| C97 | The journal table has one row per record, with the path of the file it is about | `Model/Scripts/Tables`, `Spec/UsnTable` | C28, C31 for the records, C16-C19 for the paths, induction over the rows |
| C98 | The file table listing has the rows of every file record, made from this record | `Model/Scripts/Tables`, `Spec/MftTable` | C75 for the records, C16-C19 for the paths, C21 for the slack space, induction over the records and attributes |
| C99 | The index table has the rows of the file names in all directory indexes | `Model/Scripts/Index`, `Spec/IndexTable` | C12 for what is read, C25 for the entries, C21 and C96 for the slack space, C75 for the records |
| C100 | The report on a move table has every move, and nothing in it is ambiguous | `Model/Scripts/Move`, `Spec/MoveReport` | C51 and C52 for the moves, C93 for the moments, injectivity of each line of the text |
| C101 | The table of timestamps found in memory has one row per block found | `Model/Scripts/Mem`, `Spec/MemTable` | C88 and C89 for the blocks, C26 for the accuracy, C93 for the texts |
| C102 | The table of a FAT volume has one row per entry that can be reached | `Model/Scripts/Fat`, `Spec/FatTable` | C81 for the entries, C61 and C62 for their fields, induction over the rows and over the bytes of a literal |
| C103 | The table of an exFAT volume has one row per entry that can be reached | `Model/Scripts/Fat`, `Spec/FatTable` | C80 for the entries, C69, C74 and C79 for their fields, induction over the rows |
| C104 | A volume with a valid exFAT boot region is never listed as FAT | `Model/Scripts/Fat`, `Spec/ExFATRegion` | C65 for the zeros in the region, then the checks of the boot sector of FAT |
| C105 | The mounted file system is read-only, and each request is answered from the shadow copy alone | `Model/Scripts/Mount`, `Spec/Mount` | induction over the history of requests, C42 for the bytes |
| C106 | With the alternate fill, sectors that are not stored anywhere and sectors that were not changed are marked, and no other is | `Model/ShadowCopy/Fill`, `Spec/Mount` | as C42, with the sources of a sector from C41 |
| C107 | The list of shadow copies has one line per shadow copy that is described, and these are the ones that can be selected | `Model/Scripts/Mount`, `Spec/Mount` | induction over the slots of a control block, C44 for the selection |
| C108 | The report on a log file describes every record, and lists every deleted file | `Model/Scripts/Log`, `Spec/LogReport` | a block of lines at a time (each an equivalence with the specification), then induction over the items |
| C109 | The list of all file tables has the rows of the volume and of each of its shadow copies, tagged with their origin | `Model/Scripts/AllMft`, `Model/MFT/Device`, `Spec/AllMft` | induction over the shadow copies, with C98 for each table, C42_stop for each read of a shadow copy and the uniqueness of the GUID that was selected |
| C110 | The programs change only the output file, and write there exactly what was asked for | `Model/Scripts/Main`, `Spec/Programs` | a disk as a map of paths to files; case analysis of the command line, C97-C109 for the contents |
| C111 | The marks of a FAT volume are the documented bits, and an allocated cluster is one with a non-zero entry | `Model/FAT/Marks` | C55 for the entries, bits of a mask |
| C112 | The fields of the boot sectors of FAT volumes are decoded exactly | `Model/FAT/Marks`, `Spec/BootFields` | a sector as a list of fields, reading the k-th of a concatenation |
| C113 | The fields of the boot region of exFAT volumes are decoded exactly | `Model/ExFAT/Fields`, `Spec/BootFields` | as C112; witnesses against two parts |
| C114 | Attributes on FAT and exFAT volumes are named exactly, and a doubtful type is announced | `Model/FAT/Marks` | induction over the table of names, reduction to the documented bits |
| C115 | The blocks of the shadow copy metadata are decoded exactly | `Model/ShadowCopy/Fields`, `Spec/ShadowBlocks` | as C112 for the fields, induction over the slots and the runs |
| C116 | Names stored in UTF-16 are shown exactly | `Spec/Utf16` | induction on the bytes of a name, a decoder against an encoder; witnesses for lone surrogates |
| C117 | The fields of the structures of a log file are decoded exactly, and so is the list of its clients | `Model/LogFile/Fields`, `Spec/LogFields` | as C112, induction over the clients |
| C118 | The fields of the records of a change journal and of a move table are decoded exactly | `Model/USNFields`, `Model/MoveTableFields`, `Spec/JournalFields` | as C112, induction over the ranges and the entries |
| C119 | A file table that cannot be read to its end is not listed at all | `Model/MFT/Device`, `Proof/Device` | a device is any function from a position and a size to bytes or an exception; the first pass reads all segments, so that it fails when one cannot be read |
| C120 | The headers of NTFS structures are decoded exactly | `Spec/Headers` | as C112; the fix-ups leave the first 510 bytes alone (C05, C25) |
| C121 | The text of a log record says what the record does | `Model/LogFile/RecordText`, `Spec/RecordText` | the target and the offset as for C108; each part of the text ends at a character that it does not have, so that it can be read back |
| C122 | Opening a log file ends normally or with an exception that says what is wrong | `Model/LogFile`, `Props/C122` | case analysis of both restart pages; the exceptions are classified with their causes |
| C123 | Opening an exFAT volume ends normally or with an exception that says what is wrong | `Model/ExFAT`, `Props/C123` | the slots of a directory have 32 bytes, so that no decoding fails; the bounds of C65 keep all positions below 2^63 |
| C124 | Reading a partition table ends normally or with ValueError | `Model/PartitionTable`, `Props/C124` | case analysis; the sizes of the fields bound all positions but one product |
| C125 | A file is opened as a file table exactly when its volume record says so | `Model/MFT/Parser`, `Props/C125` | induction over the attributes of the volume record; the first pass raises nothing (C17) |
| C126 | A volume is opened as FAT exactly when its boot sector describes one | `Model/FAT/Parser`, `Props/C126` | from C53 (accepted boot sectors) and C54, the table begins at a multiple of 512 exactly when the volume does |
| C127 | Opening, selecting and reading a shadow copy ends with an exception that says what is wrong | `Model/ShadowCopy/Parser`, `Props/C127`, `Props/C127_Read` | induction over the chains and the items; an `OverflowError` yields the chain that leads beyond 2^63 |
| C128 | What is printed about an attribute shows its fields | `Model/PrintInformation`, `Spec/Printed`, `Props/C128` | field by field; a shorter value is compared with a longer one line by line; UTF-8 by induction over the bytes; the lines are read back by their separators |
| C129 | What a parser reads depends only on the last shadow copy that it selected | `Model/ShadowCopy/Object`, `Props/C129`, `Props/C129_Concrete` | the selection as a function on the attributes of the object is compared with the function of C41-C44 by induction over the depth; induction over the history |
| C130 | A selection of a shadow copy that fails changes nothing | the same | false; the attributes assigned before the exception are read off the model; a volume with three shadow copies |
| C131 | Reading the header of a GUID partition table again gives the same header | `Model/PartitionTable`, `Props/C131` | what is found at a place does not depend on the remembered place; an invariant of the remembered place over the calls; a disk with two headers for the counterexamples |
| C132 | Iterating over the records of a log file again gives the same records | `Model/LogFile/Object`, `Props/C132`, `Props/C132_Concrete` | what is left in the object is the fold of the restart areas, which is idempotent; induction over the history; a log file with a tail page for the counterexamples |
| C133 | The first pass over a file table can be executed later and again | `Model/MFT/Object`, `Props/C133`, `Props/C133_Concrete` | a pass over a dictionary that has all the keys appends the children to their lists; induction over the passes; a table with a child segment for the counterexample |
| C134 | Objects that share one file object do not disturb each other | `Model/MFT/Shared`, `Model/ShadowCopy/Shared`, `Props/C134`, `Props/C134_Concrete`, `Props/C134_Shadow` | the model with the position of the file object gives the data of the model without it; induction over the steps of the program; one schedule of two threads for the limit |

## 5. What is modelled and what is not

Every definition in `Model/` cites its lines.  In summary (m = modelled, n = not modelled):

### `dfir_ntfs/Attributes.py`

* Modelled: `ResolveFileAttributes` (143-151), `DecodeFiletime` (153-162), `DecodeGUIDTime` (164-173), `VerifyAndUnprotectIndexSectors` (175-218), `GenericAttribute.__init__` (226-227), `StandardInformation.get_ctime` (243-247), `StandardInformation.get_mtime` (249-253), `StandardInformation.get_etime` (255-259), `StandardInformation.get_atime` (261-265), `StandardInformation.get_file_attributes` (267-270), `StandardInformation.get_maximum_versions` (272-275), `StandardInformation.get_version_number` (277-280), `StandardInformation.get_extra_flags` (282-285), `StandardInformation.is_case_sensitive` (287-290), `StandardInformation.get_storage_reserve_id` (292-295), `StandardInformation.get_known_folder_information` (297-300), `StandardInformation.get_trust_level` (302-305), `StandardInformation.get_class_id` (307-310), `StandardInformation.get_owner_id` (312-317), `StandardInformation.get_security_id` (319-324), `StandardInformation.get_quota_charged` (326-331), `StandardInformation.get_usn` (333-338), `StandardInformation.print_information` (340-355), `StandardInformationPartial.__init__` (360-362), `StandardInformationPartial.get_ctime` (364-369), `StandardInformationPartial.get_mtime` (371-376), `StandardInformationPartial.get_etime` (378-383), `StandardInformationPartial.get_atime` (385-390), `DuplicatedInformation.get_ctime` (398-402), `DuplicatedInformation.get_mtime` (404-408), `DuplicatedInformation.get_etime` (410-414), `DuplicatedInformation.get_atime` (416-420), `DuplicatedInformation.get_allocated_length` (422-425), `DuplicatedInformation.get_file_size` (427-430), `DuplicatedInformation.get_file_attributes` (432-435), `DuplicatedInformation.get_packed_ea_size` (437-440), `DuplicatedInformation.get_unpacked_ea_size_difference` (442-447), `FileName.__init__` (452-454), `FileName.get_parent_directory` (456-459), `FileName.get_file_name_length` (463-466), `FileName.get_flags` (468-471), `FileName.get_file_name` (473-477), `FileName.print_information` (479-492), `ObjectID.get_object_id` (497-504), `ObjectID.get_timestamp` (506-511), `ObjectID.get_extra_data` (513-516), `ObjectID.print_information` (518-525), `Data.print_information` (530-537), `AttributeList.entries` (544-574), `AttributeList.get_last_compacted_size` (576-584), `AttributeList.print_information` (586-609), `SecurityDescriptor.print_information` (614-618), `VolumeName.get_name` (623-626), `VolumeName.print_information` (628-632), `VolumeInformation.get_major_version` (637-640), `VolumeInformation.get_minor_version` (643-646), `VolumeInformation.get_flags` (648-651), `VolumeInformation.print_information` (653-658), `IndexHeader.get_first_index_entry` (666-669), `IndexHeader.get_first_free_byte` (671-674), `IndexHeader.get_bytes_available` (676-679), `IndexHeader.get_flags` (681-684), `IndexEntry.get_file_reference` (692-695), `IndexEntry.get_length` (697-700), `IndexEntry.get_attribute_length` (702-705), `IndexEntry.get_flags` (707-710), `IndexEntry.get_attribute` (712-718), `IndexEntry.get_vcn` (720-726), `IndexRoot.get_indexed_attribute_type_code` (731-734), `IndexRoot.get_collation_rule` (736-739), `IndexRoot.get_bytes_per_index_buffer` (741-744), `IndexRoot.get_blocks_per_index_buffer` (746-749), `IndexRoot.get_index_header` (751-755), `IndexRoot.index_entries` (757-778), `IndexRoot.print_information` (780-822), `IndexBuffer.get_logfile_sequence_number` (830-833), `IndexBuffer.get_this_block` (835-838), `IndexBuffer.get_index_header` (840-844), `IndexBuffer.index_entries` (846-870), `IndexBuffer.get_slack` (872-876), `IndexAllocation.__init__` (884-904), `IndexAllocation.index_buffers` (906-922), `IndexAllocation.get_slack` (924-936), `IndexAllocation.print_information` (938-948), `Bitmap.print_information` (953-957), `ReparsePoint.get_reparse_tag` (962-965), `ReparsePoint.is_reparse_tag_microsoft` (967-970), `ReparsePoint.get_reparse_data_length` (972-975), `ReparsePoint.get_reparse_guid` (977-982), `ReparsePoint.get_reparse_buffer` (984-990), `ReparsePoint.print_information` (992-997), `EAInformation.get_packed_ea_size` (1002-1005), `EAInformation.get_need_ea_count` (1007-1010), `EAInformation.get_unpacked_ea_size` (1012-1015), `EAInformation.print_information` (1017-1023), `EA.data_parsed` (1028-1064), `EA.print_information` (1066-1078), `LoggedUtilityStream.print_information` (1083-1087).
* Not modelled: `GenericAttributeNonresident.__init__` (237-238), `DuplicatedInformation.__init__` (395-396), `IndexHeader.__init__` (663-664), `IndexEntry.__init__` (689-690), `IndexBuffer.__init__` (827-828).

### `dfir_ntfs/BootSector.py`

* Modelled: `BootSector.__init__` (23-30), `BootSector.get_signature` (32-35), `BootSector.get_bytes_per_sector` (37-49), `BootSector.get_sectors_per_cluster` (51-64), `BootSector.get_total_number_of_sectors` (66-73), `BootSector.get_first_mft_cluster` (75-82), `BootSector.get_first_mftmirr_cluster` (84-91), `BootSector.get_file_record_segment_size` (93-105), `BootSector.get_index_record_size` (107-119), `BootSector.get_serial_number` (121-124), `BootSector.is_boot_code_present` (126-129).
* Not modelled: `BootSectorException.__init__` (11-12).
* Not modelled, text output and closing only: `BootSectorException.__str__`, `BootSector.__str__`.

### `dfir_ntfs/LogFile.py`

* Modelled: `ResolveNTFSOperation` (126-132), `UnprotectSectors` (134-185), `LogFileException.__init__` (190-191), `LogFileException.__str__` (193-194), `RestartPage.__init__` (237-267), `RestartPage.get_chkdsk_lsn` (269-272), `RestartPage.get_system_page_size` (274-277), `RestartPage.get_log_page_size` (279-282), `RestartPage.get_restart_offset` (284-287), `RestartPage.get_restart_area` (289-292), `RestartPage.get_major_version` (294-297), `RestartPage.get_minor_version` (299-302), `RestartArea.__init__` (313-328), `RestartArea.get_current_lsn` (330-333), `RestartArea.get_log_clients` (335-338), `RestartArea.get_client_free_list` (340-343), `RestartArea.get_client_in_use_list` (345-348), `RestartArea.get_flags` (350-353), `RestartArea.get_sequence_number_bits` (355-358), `RestartArea.get_restart_area_length` (360-363), `RestartArea.get_client_array_offset` (365-368), `RestartArea.get_file_size` (370-373), `RestartArea.get_last_lsn_data_length` (375-378), `RestartArea.get_record_header_length` (380-383), `RestartArea.get_log_page_data_offset` (385-388), `RestartArea.get_revision_number` (390-393), `RestartArea.clients` (395-405), `ClientRecord.__init__` (419-424), `ClientRecord.get_oldest_lsn` (426-429), `ClientRecord.get_client_restart_lsn` (431-434), `ClientRecord.get_prev_client` (436-439), `ClientRecord.get_next_client` (441-444), `ClientRecord.get_sequence_number` (446-449), `ClientRecord.get_client_name_length` (451-454), `ClientRecord.get_client_name` (456-460), `LogRecordPage.__init__` (483-496), `LogRecordPage.get_last_lsn` (498-501), `LogRecordPage.get_file_offset_11` (503-506), `LogRecordPage.get_file_offset_2x` (508-512), `LogRecordPage.get_flags` (514-517), `LogRecordPage.get_page_count` (519-522), `LogRecordPage.get_page_position` (524-527), `LogRecordPage.get_next_record_offset` (529-532), `LogRecordPage.get_last_end_lsn` (534-537), `LogRecordPage.get_log_record_at_offset` (539-545), `LogRecordHeader.__init__` (559-572), `LogRecordHeader.get_this_lsn` (574-577), `LogRecordHeader.get_client_previous_lsn` (579-582), `LogRecordHeader.get_client_undo_next_lsn` (584-587), `LogRecordHeader.get_client_data_length` (589-592), `LogRecordHeader.get_client_id` (594-597), `LogRecordHeader.get_record_type` (599-602), `LogRecordHeader.get_transaction_id` (604-607), `LogRecordHeader.get_flags` (609-612), `LogFileParser.__init__` (650-718), `LogFileParser.lsn_to_offset` (720-728), `LogFileParser.lsn_to_seqnum` (730-733), `LogFileParser.offset_to_lsn` (735-740), `LogFileParser.get_log_record_page_by_number` (742-756), `LogFileParser.get_wrapped_log_record_page_number` (758-768), `LogFileParser.collect_lsns` (770-1147), `LogFileParser.sort_lsns` (1149-1166), `LogFileParser.prepare_for_writes` (1168-1181), `LogFileParser.discard_changes` (1183-1191), `LogFileParser.apply_tail_page` (1193-1221), `LogFileParser.apply_fast_pages` (1223-1252), `LogFileParser.log_record_pages` (1254-1275), `LogFileParser.get_client_data` (1277-1319), `LogFileParser.parse_ntfs_records` (1321-1397), `ClientData.__init__` (1420-1426), `ClientData.data_decoded` (1428-1436), `NTFSRestartArea.__init__` (1450-1455), `NTFSRestartArea.get_major_version` (1457-1460), `NTFSRestartArea.get_minor_version` (1462-1465), `NTFSRestartArea.get_start_of_checkpoint_lsn` (1467-1470), `NTFSRestartArea.get_open_attribute_table_lsn` (1472-1475), `NTFSRestartArea.get_attribute_names_lsn` (1477-1480), `NTFSRestartArea.get_dirty_page_table_lsn` (1482-1485), `NTFSRestartArea.get_transaction_table_lsn` (1487-1490), `NTFSRestartArea.get_open_attribute_table_length` (1492-1495), `NTFSRestartArea.get_attribute_names_length` (1497-1500), `NTFSRestartArea.get_dirty_page_table_length` (1502-1505), `NTFSRestartArea.get_transaction_table_length` (1507-1510), `NTFSRestartArea.get_usn_journal_restart_offset` (1512-1516), `NTFSRestartArea.get_last_lsn` (1518-1522), `NTFSRestartArea.get_bytes_per_cluster` (1524-1528), `NTFSRestartArea.get_usn_journal_reference` (1530-1534), `NTFSRestartArea.get_usn_base` (1536-1542), `NTFSRestartArea.get_oldest_lsn` (1544-1548), `NTFSLogRecord.__init__` (1574-1582), `NTFSLogRecord.get_redo_operation` (1584-1587), `NTFSLogRecord.get_undo_operation` (1589-1592), `NTFSLogRecord.get_redo_offset` (1594-1601), `NTFSLogRecord.get_redo_length` (1603-1606), `NTFSLogRecord.get_undo_offset` (1608-1615), `NTFSLogRecord.get_undo_length` (1617-1620), `NTFSLogRecord.get_target_attribute` (1622-1625), `NTFSLogRecord.get_lcns_to_follow` (1627-1630), `NTFSLogRecord.get_record_offset` (1632-1635), `NTFSLogRecord.get_attribute_offset` (1637-1640), `NTFSLogRecord.get_cluster_block_offset` (1642-1645), `NTFSLogRecord.get_target_block_size` (1647-1653), `NTFSLogRecord.get_target_vcn` (1655-1658), `NTFSLogRecord.get_lcns_for_page` (1660-1677), `NTFSLogRecord.get_redo_data` (1679-1687), `NTFSLogRecord.get_undo_data` (1689-1697), `NTFSLogRecord.calculate_mft_target_number` (1699-1714), `NTFSLogRecord.calculate_offset_in_target` (1716-1723), `NTFSLogRecord.calculate_mft_target_reference_and_name` (1725-1746), `NTFSLogRecord.__str__` (1748-1779), `OpenAttributeEntry1.__init__` (1787-1791), `OpenAttributeEntry1.get_allocated_or_next_free` (1793-1796), `OpenAttributeEntry1.get_bytes_per_index_buffer` (1798-1801), `OpenAttributeEntry1.get_attribute_type_code` (1803-1806), `OpenAttributeEntry1.get_file_reference` (1810-1813), `OpenAttributeEntry1.get_lsn_of_open_record` (1815-1818), `OpenAttributeEntry0.__init__` (1828-1832), `OpenAttributeEntry0.get_allocated_or_next_free` (1834-1837), `OpenAttributeEntry0.get_table_index` (1839-1842), `OpenAttributeEntry0.get_file_reference` (1844-1847), `OpenAttributeEntry0.get_lsn_of_open_record` (1849-1852), `OpenAttributeEntry0.get_attribute_type_code` (1854-1857), `OpenAttributeEntry0.get_bytes_per_index_buffer` (1859-1862), `AttributeNameEntry.__init__` (1870-1874), `AttributeNameEntry.get_name` (1886-1892), `AttributeNameEntry.calculate_sizeof` (1894-1897), `AttributeNamesDumpParser.find_name_by_index` (1908-1924), `OpenAttributeTableDumpParser.__init__` (1935-1941), `OpenAttributeTableDumpParser.find_file_reference_by_index` (1943-1952).
* Not modelled: `AttributeNameEntry.get_index` (1876-1879), `AttributeNameEntry.get_name_length` (1881-1884), `AttributeNamesDumpParser.__init__` (1905-1906).
* Not modelled, text output and closing only: `RestartPage.__str__`, `RestartArea.__str__`, `ClientRecord.__str__`, `LogRecordPage.__str__`, `LogRecordHeader.__str__`, `LogFileParser.__str__`, `ClientData.__str__`, `NTFSRestartArea.__str__`.

### `dfir_ntfs/MFT.py`

* Modelled: `MasterFileTableException.__init__` (51-52), `MasterFileTableException.__str__` (54-55), `DecodeFileRecordSegmentReference` (77-83), `EncodeFileRecordSegmentReference` (85-88), `UnpackAttributeRecordPartialHeader` (98-101), `UnpackAttributeRecordRemainingHeaderResident` (103-108), `DecodeMappingPairs` (110-174), `FileRecordSegment.__init__` (197-216), `FileRecordSegment.parse_and_validate_multi_sector_header` (218-238), `FileRecordSegment.apply_update_sequence_array` (240-268), `FileRecordSegment.validate_file_record_segment_header` (270-289), `FileRecordSegment.is_bad` (291-294), `FileRecordSegment.get_logfile_sequence_number` (296-299), `FileRecordSegment.get_sequence_number` (301-304), `FileRecordSegment.get_reference_count` (306-309), `FileRecordSegment.get_first_attribute_offset` (311-314), `FileRecordSegment.get_flags` (316-319), `FileRecordSegment.is_in_use` (321-324), `FileRecordSegment.get_first_free_byte_offset` (326-329), `FileRecordSegment.get_file_record_segment_size` (331-334), `FileRecordSegment.get_base_file_record_segment` (336-339), `FileRecordSegment.is_base_file_record_segment` (341-344), `FileRecordSegment.get_master_file_table_number` (351-361), `FileRecordSegment.get_slack` (363-373), `FileRecordSegment.attributes` (375-459), `AttributeRecordResident.__init__` (497-500), `AttributeRecordResident.type_str` (502-505), `AttributeRecordResident.value_decoded` (507-515), `AttributeRecordResident.__str__` (517-523), `AttributeRecordNonresident.__init__` (549-558), `AttributeRecordNonresident.type_str` (560-563), `AttributeRecordNonresident.value_decoded` (565-590), `AttributeRecordNonresident.__str__` (592-598), `SlackSpace.carve` (612-734), `FileRecord.__init__` (742-744), `FileRecord.slack` (746-756), `FileRecord.attributes` (758-810), `FileRecord.get_data_runs` (812-862), `FileRecord.get_data_size` (864-885), `MasterFileTableParser.__init__` (936-965), `MasterFileTableParser.check_ntfs_version` (967-993), `MasterFileTableParser.get_file_record_segment_by_number` (995-1005), `MasterFileTableParser.get_file_record_by_number` (1007-1070), `MasterFileTableParser.get_file_record_by_path` (1072-1163), `MasterFileTableParser.build_full_paths` (1165-1279), `MasterFileTableParser.execute_first_pass` (1281-1317), `MasterFileTableParser.file_records` (1319-1364), `MasterFileTableParser.__str__` (1366-1367), `FragmentedFile.__init__` (1390-1400), `FragmentedFile.seek` (1402-1420), `FragmentedFile.tell` (1422-1425), `FragmentedFile.read_virtual_cluster` (1427-1453), `FragmentedFile.read` (1455-1484), `FileSystemParser.__init__` (1503-1584), `MetadataCarver.carve_fcb_timestamps` (1615-1766).
* Not modelled: `ResolveAttributeType` (90-96), `FileRecordSegment.get_next_attribute_instance` (346-349), `SlackSpace.__init__` (606-610), `FileRecord.get_logfile_sequence_number` (887-890), `FileRecord.get_sequence_number` (892-895), `FileRecord.is_in_use` (897-900), `FileRecord.get_flags` (902-905), `FileRecord.get_master_file_table_number` (907-910), `MetadataCarver.__init__` (1600-1613).
* Not modelled, text output and closing only: `FileRecordSegment.__str__`, `SlackSpace.__str__`, `FileRecord.__str__`, `FragmentedFile.close`, `FragmentedFile.__str__`, `FileSystemParser.__str__`, `MetadataCarver.__str__`.

### `dfir_ntfs/MoveTable.py`

* Modelled: `ValidateSectorSize` (22-28), `DecodeString` (30-55), `Header.__init__` (63-70), `Header.get_unknown_16` (77-80), `Header.get_flags` (82-85), `Header.is_log_flushed` (87-90), `Header.get_unknown_24` (92-95), `Header.get_expansion_data` (97-101), `Header.get_extended_header` (103-120), `LogSectorFooter.__init__` (131-134), `LogSectorFooter.get_lowest_log_entry_index_present` (136-139), `LogSectorFooter.get_next_log_entry_index` (141-144), `LogSectorFooter.get_unused` (146-149), `LogEntry.__init__` (160-168), `LogEntry.get_next_log_entry_index` (170-173), `LogEntry.get_previous_log_entry_index` (175-178), `LogEntry.get_log_entry_type` (180-183), `LogEntry.get_log_entry_index` (185-188), `LogEntry.get_unknown_16` (190-193), `LogEntry.get_object_id` (195-199), `LogEntry.get_droid` (201-210), `LogEntry.get_machine_id_raw` (212-222), `LogEntry.get_machine_id` (224-230), `LogEntry.get_birth_droid` (232-241), `LogEntry.get_timestamp` (243-255), `LogEntry.get_guid_timestamps` (257-277), `LogEntry.get_unknown_120` (279-282), `LogSector.__init__` (294-297), `LogSector.get_footer` (299-302), `LogSector.log_entries` (304-315), `MoveTableParser.__init__` (329-340), `MoveTableParser.get_header` (342-348), `MoveTableParser.log_sectors` (350-363), `MoveTableParser.log_entries` (365-373).
* Not modelled: `Header.get_signature` (72-75).
* Not modelled, text output and closing only: `Header.__str__`, `LogSectorFooter.__str__`, `LogEntry.__str__`, `LogSector.__str__`, `MoveTableParser.__str__`.

### `dfir_ntfs/PartitionTable.py`

* Modelled: `GPT.__init__` (56-69), `GPT.read_gpt_header_internal` (71-148), `GPT.read_gpt_header` (150-166), `GPT.read_gpt_partitions` (168-219), `MBR.__init__` (233-246), `MBR.read_mbr` (248-263), `MBR.read_mbr_partitions` (265-290), `MBR.read_ebr_partitions` (292-346).

### `dfir_ntfs/ShadowCopy.py`

* Modelled: `ShadowCopyException.__init__` (59-60), `ShadowCopyException.__str__` (62-63), `InvalidVolume.__init__` (68-69), `InvalidVolume.__str__` (71-72), `ShadowBlock.__init__` (110-114), `ShadowBlock.get_diff_area_guid_raw` (116-119), `ShadowBlock.get_diff_area_guid` (121-124), `ShadowBlock.get_version` (126-129), `ShadowBlock.get_type` (131-134), `ShadowBlock.get_offset_1` (136-139), `ShadowBlock.get_offset_2` (141-144), `ShadowBlock.get_offset_3` (146-149), `StartBlock.__init__` (163-183), `StartBlock.get_first_control_block_offset` (185-192), `StartBlock.get_max_diff_area_size` (194-197), `StartBlock.get_volume_guid_raw` (199-202), `StartBlock.get_volume_guid` (204-207), `StartBlock.get_storage_guid_raw` (209-212), `StartBlock.get_storage_guid` (214-217), `StartBlock.is_storage_local` (219-222), `StartBlock.get_application_flags` (224-227), `StartBlock.get_free_space_precopy_percentage` (229-232), `StartBlock.get_hot_blocks_precopy_percentage` (234-237), `StartBlock.get_hot_blocks_days` (239-242), `StartBlock.get_protection_flags` (244-247), `StartBlock.is_supported_volume` (249-253), `ControlBlock.__init__` (261-272), `ControlBlock.get_relative_offset` (274-277), `ControlBlock.get_volume_offset` (279-282), `ControlBlock.get_next_control_block_volume_offset` (284-287), `ControlBlock.items` (289-315), `ControlBlockItem2.__init__` (326-336), `ControlBlockItem2.get_item_type` (338-341), `ControlBlockItem2.get_snapshot_priority` (343-346), `ControlBlockItem2.get_volume_size` (348-351), `ControlBlockItem2.get_store_guid_raw` (353-356), `ControlBlockItem2.get_store_guid` (358-361), `ControlBlockItem2.get_flags` (363-366), `ControlBlockItem2.get_timestamp` (368-372), `ControlBlockItem2.get_stack_position` (374-377), `ControlBlockItem2.get_unknown_56` (379-380), `ControlBlockItem3.__init__` (391-398), `ControlBlockItem3.get_item_type` (400-403), `ControlBlockItem3.get_diff_area_block_offset` (405-408), `ControlBlockItem3.get_store_guid_raw` (410-413), `ControlBlockItem3.get_store_guid` (415-418), `ControlBlockItem3.get_application_information_block_offset` (420-423), `ControlBlockItem3.get_location_description_block_offset` (425-428), `ControlBlockItem3.get_bitmap_offset` (430-433), `ControlBlockItem3.get_file_reference` (435-438), `ControlBlockItem3.get_allocation_size` (440-443), `ControlBlockItem3.get_previous_bitmap_offset` (445-448), `ControlBlockItem3.get_unknown_80` (450-451), `ApplicationInformation.__init__` (459-470), `ApplicationInformation.get_application_information` (472-475), `ApplicationInformation.get_volume_offset` (477-480), `ApplicationInformation.__str__` (482-483), `Bitmap.__init__` (488-499), `Bitmap.get_bitmap` (501-504), `Bitmap.get_volume_offset` (506-509), `Bitmap.get_next_volume_offset` (511-514), `Bitmap.__str__` (516-517), `DiffAreaTable.__init__` (522-533), `DiffAreaTable.get_diff_area` (535-559), `DiffAreaTable.get_volume_offset` (561-564), `DiffAreaTable.get_next_volume_offset` (566-569), `DiffAreaTable.__str__` (571-572), `LocationDescription.__init__` (577-588), `LocationDescription.get_location_description_items` (590-609), `LocationDescription.get_volume_offset` (611-614), `LocationDescription.get_next_volume_offset` (616-619), `LocationDescription.__str__` (621-622), `ShadowParser.__init__` (681-715), `ShadowParser.shadows` (717-728), `ShadowParser.select_shadow` (730-804), `ShadowParser.read_bitmap` (806-835), `ShadowParser.read_previous_bitmap` (837-866), `ShadowParser.read_location_description_items` (868-887), `ShadowParser.read_application_information` (889-903), `ShadowParser.read_diff_area` (905-947), `ShadowParser.check_bitmap` (949-972), `ShadowParser.translate_exact_offset` (974-1129), `ShadowParser.read_at_exact_offset` (1131-1175), `ShadowParser.seek` (1177-1202), `ShadowParser.tell` (1204-1210), `ShadowParser.read` (1212-1253), `ShadowParserTwoVolumes.__init__` (1281-1341), `ShadowParserTwoVolumes.select_shadow` (1343-1417), `ShadowParserTwoVolumes.read_bitmap` (1419-1448), `ShadowParserTwoVolumes.read_previous_bitmap` (1450-1479), `ShadowParserTwoVolumes.read_location_description_items` (1481-1500), `ShadowParserTwoVolumes.read_application_information` (1502-1516), `ShadowParserTwoVolumes.read_diff_area` (1518-1560), `ShadowParserTwoVolumes.translate_exact_offset` (1562-1718), `ShadowParserTwoVolumes.read_at_exact_offset` (1720-1751), `ShadowParserTwoVolumes.read` (1753-1797).
* Not modelled, text output and closing only: `ShadowBlock.__str__`, `StartBlock.__str__`, `ControlBlock.__str__`, `ControlBlockItem2.__str__`, `ControlBlockItem3.__str__`, `ShadowParser.close`, `ShadowParser.__str__`, `ShadowParserTwoVolumes.__str__`.

### `dfir_ntfs/USN.py`

* Modelled: `ResolveReasonCodes` (73-87), `ResolveSourceCodes` (89-103), `GetUsnRecord` (105-129), `USN_RECORD_V2_OR_V3.__init__` (134-162), `USN_RECORD_V2_OR_V3.get_record_length` (164-167), `USN_RECORD_V2_OR_V3.get_major_version` (169-172), `USN_RECORD_V2_OR_V3.get_minor_version` (174-177), `USN_RECORD_V2_OR_V3.get_file_reference_number` (179-188), `USN_RECORD_V2_OR_V3.get_parent_file_reference_number` (190-199), `USN_RECORD_V2_OR_V3.get_usn` (201-204), `USN_RECORD_V2_OR_V3.get_timestamp` (206-210), `USN_RECORD_V2_OR_V3.get_reason` (212-215), `USN_RECORD_V2_OR_V3.get_source_info` (217-220), `USN_RECORD_V2_OR_V3.get_security_id` (222-225), `USN_RECORD_V2_OR_V3.get_file_attributes` (227-230), `USN_RECORD_V2_OR_V3.get_file_name_length` (232-235), `USN_RECORD_V2_OR_V3.get_file_name_offset` (237-240), `USN_RECORD_V2_OR_V3.get_file_name` (242-252), `USN_RECORD_V4.__init__` (260-276), `USN_RECORD_V4.get_record_length` (278-281), `USN_RECORD_V4.get_major_version` (283-286), `USN_RECORD_V4.get_minor_version` (288-291), `USN_RECORD_V4.get_file_reference_number` (293-299), `USN_RECORD_V4.get_parent_file_reference_number` (301-307), `USN_RECORD_V4.get_usn` (309-312), `USN_RECORD_V4.get_reason` (314-317), `USN_RECORD_V4.get_source_info` (319-322), `USN_RECORD_V4.get_remaining_extents` (324-327), `USN_RECORD_V4.get_number_of_extents` (329-332), `USN_RECORD_V4.get_extent_size` (334-337), `USN_RECORD_V4.extents` (339-359), `ChangeJournalParser.usn_records` (380-414).
* Not modelled: `ChangeJournalParser.__init__` (373-378).
* Not modelled, text output and closing only: `USN_RECORD_V2_OR_V3.__str__`, `USN_RECORD_V4.__str__`.

### `dfir_ntfs/WSL.py`

* Modelled: `DecodeUnixtime` (9-12), `LXXATTR.__init__` (17-20), `LXXATTR.validate_header` (22-33), `LXXATTR.extended_attributes` (35-67), `LXATTRB.__init__` (72-75), `LXATTRB.validate_header` (77-88), `LXATTRB.get_mode` (90-93), `LXATTRB.get_uid` (95-98), `LXATTRB.get_gid` (100-103), `LXATTRB.get_rdev` (105-108), `LXATTRB.get_atime` (110-116), `LXATTRB.get_mtime` (118-124), `LXATTRB.get_chtime` (126-132), `LXATTRB.print_information` (134-143).

### `dfir_ntfs/addons/FAT.py`

* Modelled: `ResolveFileAttributes` (90-98), `IsVolumeLabel` (100-109), `GetCountOfClusters` (126-145), `IsFileSystem32` (147-164), `IsFileSystem16` (166-172), `IsFileSystem12` (174-180), `IsFileSystemUnusual12Or16` (182-220), `ValidateShortName` (222-268), `ParseShortName` (270-304), `BuildLongName` (306-360), `BuildChecksum` (362-375), `DecodeFATDate` (377-397), `DecodeFATTime` (399-416), `ParseNTByte` (437-479), `FileSystemException.__init__` (484-485), `FileSystemException.__str__` (487-488), `BSBPB.__init__` (518-543), `BSBPB.get_bs_jmpboot` (545-548), `BSBPB.get_bs_oemname` (550-553), `BSBPB.get_bpb_bytspersec` (555-562), `BSBPB.get_bpb_secperclus` (564-584), `BSBPB.get_bpb_rsvdseccnt` (586-593), `BSBPB.get_bpb_numfats` (595-602), `BSBPB.get_bpb_rootentcnt` (604-611), `BSBPB.get_bpb_totsec16` (613-620), `BSBPB.get_bpb_media` (622-629), `BSBPB.get_bpb_fatsz16` (631-638), `BSBPB.get_bpb_secpertrk` (640-643), `BSBPB.get_bpb_numheads` (645-648), `BSBPB.get_bpb_hiddsec` (650-653), `BSBPB.get_bpb_totsec32` (655-662), `BSBPB.get_signature` (664-667), `BSBPB.get_bpb_fatsz32` (669-679), `BSBPB.get_bpb_extflags` (681-692), `BSBPB.get_bpb_fsver` (694-706), `BSBPB.get_bpb_rootclus` (708-718), `BSBPB.get_bpb_fsinfo` (720-730), `BSBPB.get_bpb_bkbootsec` (732-742), `BSBPB.get_bpb_reserved` (744-750), `BSBPB.get_bs_drvnum` (752-758), `BSBPB.get_bs_dirty_flags` (760-768), `BSBPB.is_volume_dirty` (770-778), `BSBPB.get_bs_bootsig` (780-786), `BSBPB.get_bs_extfields` (788-814), `BSBPB.get_bs_totsec64` (816-829), `BSBPB.fat_offset_and_size` (831-857), `FSINFO.__init__` (867-871), `FSINFO.get_fsi_signatures` (873-880), `FSINFO.get_fsi_reserved1` (882-885), `FSINFO.get_fsi_free_count` (887-890), `FSINFO.get_fsi_nxt_free` (892-895), `FSINFO.get_fsi_reserved2` (897-900), `FAT.__init__` (921-948), `FAT.get_element` (950-983), `FAT.get_bpb_media` (985-989), `FAT.is_volume_dirty` (1015-1026), `FAT.are_hard_errors_detected` (1028-1039), `FAT.chain` (1041-1084), `FAT.is_allocated` (1086-1092), `ExpandPath` (1106-1138), `DirectoryEntries.__init__` (1146-1152), `DirectoryEntries.entries` (1154-1448), `FileSystemParser.__init__` (1480-1510), `FileSystemParser.read_chain` (1512-1553), `FileSystemParser.walk` (1555-1694).
* Not modelled, text output and closing only: `BSBPB.__str__`, `FSINFO.__str__`, `FAT.__str__`, `DirectoryEntries.__str__`, `FileSystemParser.__str__`.

### `dfir_ntfs/addons/exFAT.py`

* Modelled: `BuildName` (118-152), `BuildLabel` (154-182), `DecodeFATTimestamp` (184-224), `DecodeFATTimezone` (226-239), `EntryTypeWithoutInUseBit` (241-247), `DecodeEntryType` (249-257), `DecodeFlags` (259-265), `EntrySetChecksum` (267-285), `BR.__init__` (321-327), `BR.get_bs_jmpboot` (329-332), `BR.get_bs_fsname` (334-337), `BR.get_mustbezero` (339-342), `BR.get_partitionoffset` (344-347), `BR.get_volumelength` (349-352), `BR.get_fatoffset` (354-357), `BR.get_fatlength` (359-362), `BR.get_clusterheapoffset` (364-367), `BR.get_clustercount` (369-372), `BR.get_firstclusterofrootdirectory` (374-377), `BR.get_volumeserialnumber` (379-382), `BR.get_filesystemrevision` (384-390), `BR.get_volumeflags` (392-402), `BR.get_bytespersector` (404-412), `BR.get_sectorspercluster` (414-423), `BR.get_numberoffats` (425-428), `BR.get_driveselect` (430-433), `BR.get_percentinuse` (435-442), `BR.get_reserved` (444-447), `BR.get_bs_bootcode` (449-452), `BR.get_bs_signature` (454-457), `BR.get_ebs_signature` (459-466), `BR.get_oem_guid` (468-474), `BR.get_oem_flash_parameters` (476-488), `BR.get_checksum` (490-503), `BR.calculate_checksum` (505-520), `BR.validate` (522-600), `FAT.__init__` (613-623), `FAT.get_element` (625-638), `FAT.get_media_type` (640-644), `FAT.chain` (646-689), `ExpandPath` (707-740), `DirectoryEntries.__init__` (748-753), `DirectoryEntries.entries` (755-1015), `Bitmap.__init__` (1026-1028), `Bitmap.is_allocated` (1030-1045), `FileSystemParser.__init__` (1083-1136), `FileSystemParser.read_chain` (1138-1201), `FileSystemParser.walk` (1203-1298).
* Not modelled: `ResolveFileAttributes` (108-116), `FileSystemException.__init__` (290-291).
* Not modelled, text output and closing only: `FileSystemException.__str__`, `BR.__str__`, `FAT.__str__`, `DirectoryEntries.__str__`, `Bitmap.__str__`, `FileSystemParser.__str__`.

### `ntfs_parser`

* Modelled: `format_timestamp` (10-14), `hexdump` (16-65), `format_source` (67-74), `process_mft` (79-292), `process_usn` (294-329), `process_log` (331-727), `process_indx` (729-861), `process_all_mft` (863-881), `process_mem` (883-891), `process_movetable` (893-943).
* Not modelled: `print_usage` (945-955).

### `fat_parser`

* Modelled: `format_tz_item` (16-26), `format_tz` (28-29), `format_timestamp` (31-38), `format_boolean` (40-47).
* Not modelled: `custom_warn` (11-12), `print_usage` (49-58).

### `vsc_mount`

* Modelled: `VSCFS.__init__` (22-36), `VSCFS._construct_attr_for_image_file` (38-64), `VSCFS._construct_attr_for_root` (66-92), `VSCFS.init` (94-95), `VSCFS.destroy` (97-102), `VSCFS.access` (104-105), `VSCFS.getattr` (107-113), `VSCFS.open` (115-122), `VSCFS.opendir` (124-128), `VSCFS.lookup` (130-134), `VSCFS.read` (136-141), `VSCFS.readdir` (143-148), `VSCFS.release` (150-151), `VSCFS.releasedir` (153-154), `VSCFS.statfs` (156-170), `VSCFS.create` (172-173), `VSCFS.fsync` (175-176), `VSCFS.fsyncdir` (178-179), `VSCFS.link` (181-182), `VSCFS.mkdir` (184-185), `VSCFS.mknod` (187-188), `VSCFS.rename` (190-191), `VSCFS.rmdir` (193-194), `VSCFS.setattr` (196-197), `VSCFS.symlink` (199-200), `VSCFS.unlink` (202-203), `VSCFS.write` (205-206), `VSCFS2.__init__` (211-229).
* Not modelled: `VSCFS2.destroy` (231-239), `print_usage` (241-249).

### Not modelled at all

* The operating system below a file object, the clock, and the limits of the machine (memory, recursion depth).

## 6. Results per property

| id | status | theorems | note |
|---|---|---|---|
| C01 | proved | `C01_encode_decode`, `C01_decode_encode`, `C01_decode_range`, `C01_injective` |  |
| C02 | proved | `C02_mapping_pairs_roundtrip` |  |
| C03 | proved | `C03_mapping_pairs_sound`, `C03_mapping_pairs_only_exception`, `C03_lengths_positive`, `C03_zero_only_first` |  |
| C04 | partial | `C04_negative_lcn_accepted`, `C04_lcn_nonneg_partial` | The full statement (decoded LCNs are never negative) is false of the code: C04_negative_lcn_accepted is a machine-checked counterexample. C04_lcn_nonneg_partial is what holds. |
| C05 | proved | `C05_usa_roundtrip`, `C05_accepted_contents` |  |
| C06 | proved | `C06_torn_rejected` |  |
| C07 | proved | `C07_accepts_iff`, `C07_accepted_sane` |  |
| C08 | proved | `C08_attributes_in_bounds`, `C08_parts_inside` |  |
| C09 | proved | `C09_attributes_complete`, `C09_attributes_complete_no_marker` |  |
| C10 | proved | `C10_slack_partition`, `C10_no_slack` |  |
| C11 | proved | `C11_runs_sound`, `C11_no_runs_no_size`, `C11_single_empty_extent`, `C11_data_size`, `C11_runs_complete`, `C11_disconnected_raises`, `C11_order_independent`, `C11_none_iff`, `C11_empty_extent_order_matters` |  |
| C12 | proved | `C12_read_exact`, `C12_read_succeeds` |  |
| C13 | partial | `C13_explicit_size_exceeds`, `C13_read_in_file_partial` | False for explicit sizes (C13_explicit_size_exceeds). Proved: read() and negative sizes, sizes inside the file, files that fill their last cluster; in all cases the read ends with the cluster in which the file ends. |
| C14 | partial | `C14_split_differs`, `C14_split_read_partial` | False as a consequence of C13 (C14_split_differs). Proved for all reads except those whose first part ends at or beyond the end of a file that does not fill its last cluster. |
| C15 | partial | `C15_seek_exact`, `C15_tell_history_partial`, `C15_failed_read_moves` | seek is exact and failure-atomic (C15_seek_exact, full). The history part holds for histories without failing reads (C15_tell_history_partial); a failing read moves the position (C15_failed_read_moves). |
| C16 | proved | `C16_lookup_iff`, `C16_sequence_number_honoured`, `C16_other_sequence_refused`, `C16_deleted_sequence` |  |
| C17 | proved | `C17_lookup_total`, `C17_children` |  |
| C18 | proved | `C18_paths_terminate` |  |
| C19 | proved | `C19_path`, `C19_one_path_per_name`, `C19_failure` |  |
| C20 | partial | `C20_found_by_path_partial`, `C20_not_found`, `C20_deleted_directory_found` | Proved: the record found is in use, carries the last component as a name, and the records along its parent references carry the other components up to the root; C20_not_found is the converse. False of the code: the records in between need not be in use (C20_deleted_directory_found). |
| C21 | partial | `C21_reported_iff_partial`, `C21_entries_inside_partial`, `C21_cut_name_reported`, `C21_recognizable_name`, `C21_last_name` | Proved: carving terminates and reports exactly the plausible entries (four timestamps within the bounds, plausible name) that do not overlap an earlier one, and their fixed parts are inside the buffer; and the recognizable part of a name that is reported is the last sequence of at least five recognizable characters before the first entry, if there is one (C21_last_name). False of the code: the name may extend beyond the end of the buffer and is then cut (C21_cut_name_reported). |
| C22 | partial | `C22_roundtrip`, `C22_roundtrip_unpadded`, `C22_sound`, `C22_truncated_name_accepted` | Proved: total, no exception, round trip for all stored lists, and for all byte strings the entries are non-overlapping places whose headers lie inside the value. False: the name of the last entry may stick out of the value and is then cut (C22_truncated_name_accepted). |
| C23 | partial | `C23_sound_partial`, `C23_complete`, `C23_entry_outside_accepted`, `C23_struct_error`, `C23_attribute`, `C23_slack` | Proved: termination, exact listing of well-formed nodes, and soundness of places for all byte strings. False: an entry may be declared larger than the rest of the node (C23_entry_outside_accepted) and struct.error can be raised (C23_struct_error). |
| C24 | proved | `C24_roundtrip`, `C24_sound` |  |
| C25 | proved | `C25_rejected_iff`, `C25_total`, `C25_restored`, `C25_roundtrip`, `C25_buffers` |  |
| C26 | partial | `C26_not_exact`, `C26_not_floor`, `C26_exact_partial`, `C26_exact_even_partial`, `C26_error_partial`, `C26_monotone_partial` | False of the code, which divides in floating point (C26_not_exact, C26_not_floor). Proved: exactness for whole microseconds below 2^53 and even ones below 2^54, the error bound below 10*2^54, and monotonicity for all values. |
| C27 | proved | `C27_text`, `C27_injective` |  |
| C28 | proved | `C28_rejections`, `C28_sound` |  |
| C29 | proved | `C29_nothing_missed`, `C29_exact`, `C29_large_record_missed` |  |
| C30 | proved | `C30_reasons`, `C30_sources` |  |
| C31 | proved | `C31_accepted`, `C31_refused`, `C31_name`, `C31_fields`, `C31_extents` |  |
| C32 | proved | `C32_meaning`, `C32_roundtrip`, `C32_injective`, `C32_position_roundtrip`, `C32_position_too_large` |  |
| C33 | proved | `C33_rejected_iff`, `C33_restored`, `C33_checksum`, `C33_roundtrip`, `C33_torn`, `C33_checksum_roundtrip` |  |
| C34 | proved | `C34_valid`, `C34_terminates`, `C34_complete`, `C34_complete_single_lap`, `C34_restart_areas`, `C34_too_large` |  |
| C35 | proved | `C35_original_unchanged`, `C35_reads_overlay`, `C35_prepare`, `C35_parse_restores`, `C35_example`, `C35_unprepared_writes_original` |  |
| C36 | proved | `C36_latest_copy`, `C36_no_copy`, `C36_exhaustive`, `C36_example` |  |
| C37 | proved | `C37_data`, `C37_length` |  |
| C38 | partial | `C38_valid_page_used_partial`, `C38_older_page_used` | False as stated: LSNs are not compared and the first valid restart page is used (C38_older_page_used). Proved: the page used passes all checks, and the second page is used only when the first one is not valid (C38_valid_page_used_partial). |
| C39 | partial | `C39_redo_undo_partial`, `C39_inside`, `C39_lcns`, `C39_cut_or_header_accepted` | False as stated: C39_cut_or_header_accepted shows that redo data reaching beyond the end of the record is silently cut and that the offset 0 gives header bytes. Proved: the exact result for every record (C39_redo_undo_partial), exactness for records whose recorded places are inside (C39_inside), and the LCN list (C39_lcns). |
| C40 | proved | `C40_names`, `C40_names_sound`, `C40_references` |  |
| C41 | proved | `C41_selected`, `C41_sectors`, `C41_no_wrong_sector`, `C41_outside`, `C41_overlay`, `C41_copy`, `C41_forwarded`, `C41_newer`, `C41_unused`, `C41_volume`, `C41_overlay_lost_at_null_target` |  |
| C42 | proved | `C42_sound`, `C42_complete`, `C42_exact`, `C42_split`, `C42_rest`, `C42_seek`, `C42_stop` |  |
| C43 | partial | `C43_last_block_partial`, `C43_aligned_partial`, `C43_rest_partial`, `C43_beyond_size` | False as stated: C43_beyond_size gives a shadow copy of 256 bytes from which a read of 512 bytes returns 512 (the size is only compared with the start of each 16 KiB block). Proved: nothing beyond the last block and never more than asked (C43_last_block_partial), and the property itself for volume sizes that are multiples of 16 KiB and for reads of the rest. |
| C44 | partial | `C44_open_partial`, `C44_select_partial`, `C44_result_unique`, `C44_endless`, `C44_cyclic_chain` | False as stated: C44_cyclic_chain gives a volume on which the constructor never returns, and C44_endless shows that every endless chain of control blocks has this effect. Proved: opening and selecting finish when no chain of blocks is endless (C44_open_partial, C44_select_partial), and the result does not depend on the bound on the number of steps (C44_result_unique). |
| C45 | proved | `C45_load`, `C45_unique`, `C45_table` |  |
| C46 | partial | `C46_accepted_consistent_partial`, `C46_header_damage_detected`, `C46_array_damage_detected`, `C46_unordered_accepted` | Everything in the statement is proved (C46_accepted_consistent_partial, with C46_header_damage_detected and C46_array_damage_detected) except the order of the first and last usable LBA, which the code does not check (C46_unordered_accepted). |
| C47 | proved | `C47_fallback`, `C47_last_sector_backup` |  |
| C48 | proved | `C48_partitions_exact`, `C48_accepted_header_lists` |  |
| C49 | partial | `C49_primary_partitions`, `C49_walk_terminates`, `C49_logical_partitions_partial`, `C49_zero_start_drops` | Termination and exactness are proved for disks where no extended partition starts at LBA 0; with one that does, logical partitions found before it are dropped (C49_zero_start_drops). |
| C50 | partial | `C50_accepts_iff`, `C50_sectors_per_cluster`, `C50_bytes_per_sector`, `C50_record_sizes`, `C50_odd_geometry_accepted`, `C50_geometry_partial`, `C50_boot_code` | Exact acceptance is proved (C50_accepts_iff); the claim that all sizes are powers of two is false of the code (C50_odd_geometry_accepted). C50_geometry_partial is what holds. |
| C51 | proved | `C51_entries`, `C51_sector_size`, `C51_header_iff`, `C51_timestamp`, `C51_short_sector_accepted` |  |
| C52 | proved | `C52_roundtrip`, `C52_short_record_dropped`, `C52_sound`, `C52_lxattrb`, `C52_times` |  |
| C53 | proved | `C53_accepted`, `C53_type`, `C53_layout` |  |
| C54 | partial | `C54_errors`, `C54_type_error`, `C54_rejected_partial` | False as stated: a boot sector without a count of sectors, or one without a 16-bit table size and without a 32-bit one or a usable sectors-per-cluster value, gives a TypeError (C54_type_error). Proved: these sectors are the only ones (C54_errors), and every other sector that is not taken gives one of the two exceptions (C54_rejected_partial). |
| C55 | proved | `C55_entry`, `C55_written`, `C55_refused` |  |
| C56 | proved | `C56_terminates`, `C56_followed`, `C56_error`, `C56_reserved`, `C56_clusters` |  |
| C57 | proved | `C57_read`, `C57_size_cuts`, `C57_length`, `C57_opened` |  |
| C58 | proved | `C58_value`, `C58_detects`, `C58_not_attached` |  |
| C59 | proved | `C59_accepted`, `C59_parsed`, `C59_raw`, `C59_roundtrip` |  |
| C60 | proved | `C60_long_name`, `C60_written`, `C60_deleted_unchecked` |  |
| C61 | proved | `C61_files`, `C61_count`, `C61_refused` |  |
| C62 | proved | `C62_date`, `C62_time` |  |
| C63 | partial | `C63_terminates`, `C63_no_loop_partial`, `C63_orphan_entered_again` | C63_terminates is the full claim about termination, for every volume. C63_no_loop_partial: no directory is entered while it is on the path, except that an orphan directory (walked after the root) is not on its own path; C63_orphan_entered_again is a volume where such a directory is entered once more. |
| C64 | partial | `C64_aborted`, `C64_ends_partial` | The claim is false: C64_aborted is a volume with one long-name slot with an empty text whose walk ends with a TypeError. C64_ends_partial: for an opened volume with a readable root directory of whole sectors, and no long-name piece that starts with a null, the walk ends without an exception, whatever else is damaged. |
| C65 | proved | `ExFAT.C65_accepted`, `ExFAT.C65_layout`, `ExFAT.C65_lookup` |  |
| C66 | partial | `ExFAT.C66_entry_set`, `ExFAT.C66_boot_region_partial`, `ExFAT.C66_sector_size_undetected` | C66_entry_set is the full claim for entry sets. C66_boot_region_partial: a change of a covered byte of the boot region other than the sector-size byte is detected. The claim is false for that byte, because it selects what is summed: C66_sector_size_undetected is a pair of accepted regions that differ only there. |
| C67 | partial | `ExFAT.C67_backup_512`, `ExFAT.C67_backup_4096_partial`, `ExFAT.C67_used`, `ExFAT.C67_reported`, `ExFAT.C67_proceeds`, `ExFAT.C67_other_sector_sizes`, `ExFAT.C67_backup_4096_hidden` | C67_backup_512, C67_used, C67_reported and C67_proceeds are the full claim for 512-byte sectors. False for others: the backups of volumes with 1024- and 2048-byte sectors are never tried (C67_other_sector_sizes), and something valid at the place of the 512-byte backup hides that of a volume with 4096-byte sectors (C67_backup_4096_hidden); C67_backup_4096_partial is what holds. |
| C68 | proved | `ExFAT.C68_entry`, `ExFAT.C68_terminates`, `ExFAT.C68_followed`, `ExFAT.C68_reserved`, `ExFAT.C68_error`, `ExFAT.C68_clusters`, `ExFAT.C68_contiguous`, `ExFAT.C68_contiguous_valid`, `ExFAT.C68_read`, `ExFAT.C68_opened` |  |
| C69 | proved | `ExFAT.C69_listing`, `ExFAT.C69_refused`, `ExFAT.C69_set`, `ExFAT.C69_no_failure` |  |
| C70 | partial | `ExFAT.C70_cut_name`, `ExFAT.C70_names_partial`, `ExFAT.C70_orphan` | False as stated: a name longer than the length in the stream extension is cut and not checked (C70_cut_name: an allocated file reported as "a/b"). C70_names_partial: this is the only way; C70_orphan is the full claim for names outside of a set. |
| C71 | proved | `ExFAT.C71_bitmap`, `ExFAT.C71_bit`, `ExFAT.C71_none`, `ExFAT.C71_short`, `ExFAT.C71_opened` |  |
| C72 | partial | `ExFAT.C72_terminates`, `ExFAT.C72_no_loop_partial`, `ExFAT.C72_orphan_entered_again` | C72_terminates is the full claim about termination, for every volume. C72_no_loop_partial: no directory is entered while it is on the path, except that an orphan directory (walked after the root) is not on its own path; C72_orphan_entered_again shows one that is entered once more. |
| C73 | partial | `ExFAT.C73_ends_partial`, `ExFAT.C73_aborted` | The claim is false: C73_aborted is a volume with a directory whose size is not a multiple of 512, which ends the walk. C73_ends_partial: for an opened volume whose root directory can be read and listed, whose bitmap covers the clusters, whose reachable directories are whole sectors and whose deleted directories have valid times, the walk ends without an exception whatever else is damaged, so that by C80_complete everything else is reported. |
| C74 | proved | `ExFAT.C74_time_zone` |  |
| C75 | proved | `C75_file_records`, `C75_agrees_with_lookup` |  |
| C76 | proved | `C76_example`, `C76_fast_pages` |  |
| C77 | proved | `C77_open_attributes`, `C77_example` |  |
| C78 | partial | `C78_dumps_partial`, `C78_dumps_do_not_match` | False as stated: after the dumps T1 N1 T2 N2 T3 a record gets T2 with N1 (C78_dumps_do_not_match). C78_dumps_partial says exactly which dumps are attached; they belong together whenever there are as many dumps of each kind. |
| C79 | proved | `ExFAT.C79_timestamp`, `ExFAT.C79_found` |  |
| C80 | proved | `ExFAT.C80_sound`, `ExFAT.C80_complete`, `ExFAT.C80_newest`, `ExFAT.C80_orphans`, `ExFAT.C80_orphans_complete` |  |
| C81 | proved | `C81_sound`, `C81_complete`, `C81_orphans`, `C81_orphans_complete` |  |
| C82 | proved | `C82_open_sound` |  |
| C83 | partial | `C83_first_record_elsewhere`, `C83_first_record_partial` | False as stated: the place in the boot sector and the one in the data runs of the first segment are never compared (C83_first_record_elsewhere). C83_first_record_partial: it holds when the first data run begins at the place in the boot sector. |
| C84 | partial | `C84_exceptions_partial`, `C84_overflow_error`, `C84_value_error`, `C84_attribute_error`, `C84_struct_error` | False as stated: OverflowError, ValueError, AttributeError and struct.error occur (C84_overflow_error, C84_value_error, C84_attribute_error, C84_struct_error). C84_exceptions_partial: no others do, and none of these without an attribute list or a place that cannot be sought to. |
| C85 | proved | `C85_open_complete` |  |
| C86 | proved | `C86_merged`, `C86_unreadable` |  |
| C87 | partial | `C87_agrees_partial`, `C87_gap_merged`, `C87_first_extent_lost` | False as stated: extents with a gap between them are merged as if they were connected (C87_gap_merged), and an attribute without its first extent is dropped (C87_first_extent_lost), where get_data_runs raises. C87_agrees_partial: whenever get_data_runs gives data runs, merging yields exactly one attribute of the stream, with these. |
| C88 | proved | `C88_sound`, `C88_apart`, `C88_complete` |  |
| C89 | proved | `C89_guess` |  |
| C90 | partial | `C90_again_partial`, `C90_second_call`, `C90_kept_after_error` | False as stated: positions guessed at the first time restrict the candidates at the second time (C90_second_call), and stay after a ValueError (C90_kept_after_error). C90_again_partial: the same result if at least 25 blocks were carved. |
| C91 | proved | `C91_lines`, `C91_empty`, `C91_injective` |  |
| C92 | proved | `C92_csv_round_trip`, `C92_names`, `C92_encoding` |  |
| C93 | proved | `C93_text`, `C93_order`, `C93_filetime`, `C93_guid_time` |  |
| C94 | partial | `C94_standard_information`, `C94_extra_flags`, `C94_standard_information_extension`, `C94_duplicated_information`, `C94_file_name`, `C94_object_id`, `C94_object_id_other`, `C94_index_entry`, `C94_index_root`, `C94_reparse_point`, `C94_reparse_guid_of_record`, `C94_ea_information`, `C94_volume_information`, `C94_last_compacted_size`, `C94_last_compacted_size_none`, `C94_short` | False as stated for one getter: the GUID of a third-party reparse point of a file record raises AssertionError, as the value there is a bytearray (C94_reparse_guid_of_record). Everything else is proved. |
| C95 | proved | `C95_timestamps`, `C95_agrees` |  |
| C96 | proved | `C96_slack` |  |
| C97 | partial | `C97_usn_table`, `C97_complete_partial`, `C97_sequence_number`, `C97_one_record_stops` | False as stated: a record with a bad name stops the program (C97_one_record_stops). C97_usn_table: the rows are right, in order and without gaps up to the record that stops the program, and when that happens. C97_complete_partial: nothing is left out when the names are inside of the records and the file table is usable. |
| C98 | partial | `C98_mft_table`, `C98_complete_partial`, `C98_record_left_out`, `C98_listing_stops` | False as stated: a file record with a damaged attribute is left out (C98_record_left_out), and a short value stops the program (C98_listing_stops). C98_mft_table: the rows are right, in order and without gaps up to the record that stops the program, and when that happens and when a block is empty. C98_complete_partial: every record has its rows when the table is usable for paths and rows can be made from all records. |
| C99 | partial | `C99_parts`, `C99_index_table`, `C99_complete_partial`, `C99_parent_partial`, `C99_wrong_parent` | False as stated: a file name that records another parent is listed in the directory whose index it is in (C99_wrong_parent), and records for which paths cannot be built, or with a damaged index, are left out or stop the program. Index buffers are read one by one, as in the code. C99_parts: reading parts of a fragmented file gives parts of its contents. C99_index_table: the rows are right, in order and without gaps up to the record that stops the program, and what is written for that record is the beginning of its rows. C99_complete_partial: every record has its rows when the table is usable for paths and the indexes can be listed. C99_parent_partial: names that record the directory are put in it. |
| C100 | proved | `C100_report`, `C100_lossless`, `C100_encodable` |  |
| C101 | proved | `C101_table`, `C101_order` |  |
| C102 | proved | `C102_table`, `C102_sound`, `C102_complete` |  |
| C103 | proved | `ExFAT.C103_table`, `ExFAT.C103_refused`, `ExFAT.C103_sound`, `ExFAT.C103_complete` |  |
| C104 | proved | `ExFAT.C104_exfat`, `ExFAT.C104_fat` |  |
| C105 | proved | `Mount.C105_history`, `Mount.C105_read_only`, `Mount.C105_read`, `Mount.C105_end`, `Mount.C105_lookup`, `Mount.C105_other_names`, `Mount.C105_directory`, `Mount.C105_nothing_else` |  |
| C106 | proved | `Mount.C106_fill`, `Mount.C106_same` |  |
| C107 | proved | `Mount.C107_shadows`, `Mount.C107_bad_slot`, `Mount.C107_list`, `Mount.C107_disabled`, `Mount.C107_invalid`, `Mount.C107_not_found`, `Mount.C107_selected` |  |
| C108 | partial | `C108_report`, `C108_complete_partial`, `C108_rejected`, `C108_determined`, `C108_deleted`, `C108_bad_data`, `C108_negative_target`, `C108_deleted_left_out`, `C108_one_record_stops` | False as stated: a deletion whose record is cut short is not listed (C108_deleted_left_out), and a record without a description ends the report (C108_one_record_stops; C108_bad_data and C108_negative_target say which records these are, among others). C108_report: what is written, for every log file, up to such a record; the lines of each section are those of Spec/LogReport, which C108_determined shows to be determined by the item. C108_deleted: which items put a number on the list. C108_complete_partial: with a description of every item, the report is complete. |
| C109 | proved | `AllMft.C109_finished`, `AllMft.C109_stopped`, `AllMft.C109_complete`, `AllMft.C109_disabled`, `AllMft.C109_parts` | C109_finished and C109_stopped say what is written, for every volume and wherever the list ends; the shadow copies are read part by part, as by the program (Model/MFT/Device, C42_stop). C109_complete says when the list is finished; C109_disabled is for a volume without shadow copies. |
| C110 | proved | `Programs.C110_others`, `Programs.C110_others_fat`, `Programs.C110_usage`, `Programs.C110_usage_fat`, `Programs.C110_unopened`, `Programs.C110_unopened_fat`, `Programs.C110_contents`, `Programs.C110_contents_fat`, `Programs.C110_same_file` | A file system is a map from paths to files; more than one path can lead to a file. C110_same_file is a finding: with the input as the output, the input is lost. |
| C111 | proved | `FatMarks.C111_allocated`, `FatMarks.C111_media`, `FatMarks.C111_marks`, `FatMarks.C111_no_marks`, `FatMarks.C111_boot`, `FatMarks.C111_windows` | C111_windows is a finding: what Windows writes to entry 1 of a FAT32 volume in use is read as clean; a comment in the code says so. |
| C112 | proved | `BootFields.C112_fat16`, `BootFields.C112_fat32`, `BootFields.C112_info`, `BootFields.C112_info_refused` |  |
| C113 | partial | `BootFieldsEx.C113_fields`, `BootFieldsEx.C113_extended_elsewhere`, `BootFieldsEx.C113_extended_partial`, `BootFieldsEx.C113_extended_numbers`, `BootFieldsEx.C113_oem_elsewhere`, `BootFieldsEx.C113_oem_in_reserved`, `BootFieldsEx.C113_extended_refuted`, `BootFieldsEx.C113_oem_ignored` | C113_fields holds for every region. False as stated for two other fields: the signature of an extended boot sector is read at byte 508 of the sector (C113_extended_elsewhere), which is its place for sectors of 512 bytes only (C113_extended_partial, C113_extended_refuted); the OEM parameters are read from the reserved sector after them (C113_oem_elsewhere, C113_oem_in_reserved), so that they are not found (C113_oem_ignored). |
| C114 | proved | `FatText.C114_text`, `FatText.C114_injective`, `FatText.C114_unusual` |  |
| C115 | proved | `ShadowBlocks.C115_start`, `ShadowBlocks.C115_block`, `ShadowBlocks.C115_described`, `ShadowBlocks.C115_located`, `ShadowBlocks.C115_items`, `ShadowBlocks.C115_locations`, `ShadowBlocks.C115_application` |  |
| C116 | proved | `Names16.C116_label`, `Names16.C116_label_stored`, `Names16.C116_label_injective`, `Names16.C116_file_name`, `Names16.C116_file_names_differ`, `Names16.C116_surrogates_alike`, `Names16.C116_stream_name`, `Names16.C116_stream_found`, `Names16.C116_streams_mixed`, `Names16.C116_log_name`, `Names16.C116_partition_name`, `Names16.C116_partition_name_stored` | C116_surrogates_alike and C116_streams_mixed are findings about names that are not texts (lone surrogates). |
| C117 | proved | `LogFields.C117_restart_area`, `LogFields.C117_client`, `LogFields.C117_clients`, `LogFields.C117_page`, `LogFields.C117_record`, `LogFields.C117_ntfs_area`, `LogFields.C117_ntfs_area_cut`, `LogFields.C117_open_attribute1`, `LogFields.C117_open_attribute0`, `LogFields.C117_open_attribute_short` |  |
| C118 | proved | `JournalFields.C118_change`, `JournalFields.C118_ranges`, `JournalFields.C118_header`, `JournalFields.C118_entry`, `JournalFields.C118_sector` |  |
| C119 | proved | `AllMft.C119_accepted`, `AllMft.C119_complete`, `AllMft.C119_all_or_nothing` |  |
| C120 | proved | `Headers.C120_boot_sector`, `Headers.C120_boot_sizes`, `Headers.C120_segment`, `Headers.C120_index_buffer`, `Headers.C120_mbr`, `Headers.C120_exfat_media` |  |
| C121 | partial | `C121_text`, `C121_no_text`, `C121_lengths_partial`, `C121_readable`, `C121_equal`, `C121_readable_without_text`, `C121_zero_offset`, `C121_cut`, `C121_equal_shown_different` | False as stated: a record whose data can be read has no text when an offset without data is inside of the header (C121_readable_without_text), data at offset zero is shown with the length zero (C121_zero_offset), data that is cut is shown with its full length (C121_cut), and equal data in two places is shown as different (C121_equal_shown_different). C121_text: what the text is, for all records and tables; C121_no_text: when there is none. C121_equal: data shown as equal is equal. C121_lengths_partial: the lengths are right for data that is in the record and not at offset zero. C121_readable: what can be read back from a text. |
| C122 | partial | `C122_errors`, `C122_declared_partial`, `C122_empty`, `C122_struct_error`, `C122_second_page_not_tried` | False as stated: a restart area that begins less than 24 bytes before the end of its page (or a valid one, less than 40) raises struct.error (C122_struct_error); an unknown version in the first restart page refuses a log file although the second page is good (C122_second_page_not_tried). C122_errors is the exact list of exceptions with their causes; C122_declared_partial is what holds of the claim. |
| C123 | partial | `ExFAT.C123_directory`, `ExFAT.C123_declared_partial`, `ExFAT.C123_cut_region`, `ExFAT.C123_cut` | False as stated: an image of a volume with sectors of more than 512 bytes that is cut inside of the first boot region raises struct.error, and the backup region is not tried (C123_cut, for all such images). C123_declared_partial holds when 24 sectors of 4096 bytes are there; C123_directory holds of all directories. |
| C124 | partial | `C124_header_errors`, `C124_header_partial`, `C124_partitions_errors`, `C124_mbr`, `C124_opening`, `C124_overflow` | False as stated: a signed header in the last sector with a product of the number and the size of the entries of 2^63 or more raises OverflowError (C124_overflow). C124_header_errors and C124_partitions_errors show that this is the only exception besides ValueError; C124_opening and C124_mbr hold without conditions. |
| C125 | proved | `C125_opened_iff`, `C125_errors`, `C125_declared`, `C125_attribute_error`, `C125_struct_error` |  |
| C126 | proved | `C126_opened_iff`, `C126_errors`, `C126_offset`, `C126_table`, `C126_type_error` |  |
| C127 | partial | `C127_open`, `C127_select`, `C127_declared_partial`, `C127_not_implemented`, `C127_overflow`, `C127_read`, `C127_read_overflow` | False as stated: a volume with a pointer of 2^63 or more raises OverflowError when it is opened (C127_overflow), or when the shadow copy is read (C127_read_overflow). C127_open, C127_select and C127_read show, for all volumes, that this is the only undeclared exception and where such a pointer must be; C127_declared_partial has the claim for volumes without such a pointer. |
| C128 | proved | `Printed.C128_standard_information`, `Printed.C128_standard_information_short`, `Printed.C128_file_name`, `Printed.C128_file_name_short`, `Printed.C128_volume_information`, `Printed.C128_reparse_point`, `Printed.C128_ea_information`, `Printed.C128_short`, `Printed.C128_lengths`, `Printed.C128_object_id`, `Printed.C128_attribute_list`, `Printed.C128_utf8`, `Printed.C128_ea`, `Printed.C128_index_root`, `Printed.C128_index_root_error`, `Printed.C128_index_allocation`, `Printed.C128_wsl`, `Printed.C128_standard_readable`, `Printed.C128_file_name_readable`, `Printed.C128_null_printed` |  |
| C129 | proved | `Reselect.C129_selected`, `Reselect.C129_history`, `Reselect.C129_answer`, `Reselect.C129_attributes`, `Reselect.C129_unselected` |  |
| C130 | partial | `Reselect.C130_not_found_partial`, `Reselect.C130_position`, `Reselect.C130_other_size`, `Reselect.C130_attribute_error` | False of the code: the attributes of the parser are assigned one by one while the metadata is read. C130_other_size: after a selection that fails because of a damaged table, the end of the volume is that of the other shadow copy; C130_attribute_error: reading raises AttributeError when a newer shadow copy was the damaged one. It holds for a shadow copy that is not found, and for volumes with their shadow copies elsewhere (C130_not_found_partial); the position stays in any case (C130_position). A selection that succeeds later repairs the parser (C129_history). |
| C131 | partial | `C131_again_partial`, `C131_other_header`, `C131_found_later` | Proved for disks whose second sector is signed, or whose last sector is unsigned or names LBA 1 as the other copy (C131_again_partial). False of the code otherwise: the place of the other copy is remembered from the last header that was read, so that the next call may give another header (C131_other_header) or find one where the first call found none (C131_found_later). |
| C132 | partial | `LogAgain.C132_again_partial`, `LogAgain.C132_left_items`, `LogAgain.C132_mixed`, `LogAgain.C132_left` | Proved for iterations with the same choice of recovery, which have ended normally if log data is recovered (C132_again_partial). False of the code otherwise: after an iteration with recovery that was left, the recovered copy is read by an iteration without recovery (C132_left); and what the restart areas of the recovered file set stays set (C132_mixed). |
| C133 | partial | `C133_later`, `C133_before`, `C133_passes_partial`, `C133_doubled` | Proved: a later pass gives the parser that the constructor gives (C133_later), what is given before it (C133_before), and what exactly is given after any number of further passes (C133_passes_partial). That another pass changes nothing is false of the code: the child segments of all records are appended once more, so that their attributes and paths are listed twice (C133_doubled). |
| C134 | proved | `Shared.C134_files`, `Shared.C134_same_calls`, `Shared.C134_volume_moved`, `Shared.C134_threads`, `Shared.C134_records`, `Shared.C134_lookup`, `SharedShadow.C134_shadows` | C134_files and C134_same_calls for the files of a volume, C134_shadows for parsers of shadow copies (a selection is one step), C134_records and C134_lookup for file tables (whose file is shorter than 2^63 bytes). The limits are shown too: the file object is left where the last read ended (C134_volume_moved), and calls of two threads that overlap can get the data of the other file (C134_threads). |

The axioms of every theorem in this table are listed in `AXIOMS.md`, as printed by `#print axioms`.

## 7. Findings about the code

Each item marked with a theorem is proved of the model.  Items without a
theorem were noticed while reading the code and are listed as observations only.

### NTFS file table (`MFT.py`, `Attributes.py`)
* A mapping pairs array can lead to a negative LCN (`C04_negative_lcn_accepted`); reading such a run then raises `ValueError` from `seek`.
* `FragmentedFile.read(size)` does not stop at the end of the file (`C13_explicit_size_exceeds`, `C14_split_differs`). A failing read moves the position (`C15_failed_read_moves`).
* `get_file_record_by_path` only requires the last component to be in use; it follows deleted directories (`C20_deleted_directory_found`). It uses only the first matching name of each record.
* The direct children of the root are matched by record number 5 alone; deeper ones also need the sequence number. The first pass does not check that child segments are in use.
* With 4096-byte segments a 1024-byte tail of the file may be accepted by lookup by number although the first pass skips it.
* Names cut at the end of the index buffer slack are reported without notice (`C21_cut_name_reported`); cut names in attribute lists are accepted (`C22_truncated_name_accepted`); index entries can lie outside the node (`C23_entry_outside_accepted`) and can raise `struct.error` (`C23_struct_error`).
* A resident attribute of type 0xA0 makes `value_decoded` raise `AttributeError`.
* The place of `$MFT` in the boot sector and the one in its own data runs are never compared (`C83_first_record_elsewhere`). `OverflowError`, `ValueError`, `AttributeError` and `struct.error` escape from opening a volume (`C84_*`).
* While a volume is opened, sequence numbers in the attribute list are not compared and segments are not checked to belong to `$MFT`. A segment with two `$DATA` extents is listed twice, so it is loaded twice and its extents no longer connect.
* `attributes(True)` does not check that extents connect (`C87_gap_merged`), and drops extents without a first one (`C87_first_extent_lost`).
* A `MetadataCarver` keeps the guessed layout, even after `ValueError`: a second call can fail where the first one succeeded (`C90_second_call`, `C90_kept_after_error`).
* `DecodeFiletime` divides in floating point, so the result is neither exact nor the floor (`C26_not_exact`, `C26_not_floor`).
* The GUID of a third-party reparse point raises `AssertionError` for a value of a file record, which is a `bytearray` (`C94_reparse_guid_of_record`).

### USN journal (`USN.py`)
* Records above 8192 bytes are never found by the scan (`C29_large_record_missed`). Lines 395-401 have no effect.

### `$LogFile` (`LogFile.py`)
* Applying fast pages without preparing first writes to the original (`C35_unprepared_writes_original`).
* The first valid restart page is used even when the other one is newer (`C38_older_page_used`); a restart page with an unknown version raises `NotImplementedError` even when the other page is fine.
* Redo or undo data that is cut off or lies in the header is accepted (`C39_cut_or_header_accepted`).
* Table dumps of different checkpoints are mixed (`C78_dumps_do_not_match`).
* An exception during `parse_ntfs_records` skips `discard_changes`. After a wrap, `find_next_lsn` takes the sequence number from the outer loop's LSN. `collect_lsns` can raise `AttributeError`. `use_dumps` is undefined when no restart area record was collected. `cluster_size` depends on the iteration order of a set. `apply_fast_pages` raises `TypeError` when an update sequence array ends after offset 60. `struct.error` escapes for a restart area too close to the end of the page.

### Shadow copies (`ShadowCopy.py`)
* No chain of blocks is checked for cycles: a cyclic chain never ends (`C44_cyclic_chain`).
* Overlay data is lost for descriptors with a null target (`C41_overlay_lost_at_null_target`).
* A read at the end of a volume whose size is not a multiple of 0x4000 returns bytes beyond it (`C43_beyond_size`).
* The checks `offset == 0 and offset % 0x4000 != 0` (469, 498, 532, 587) can never be true. `return []` at 1036-1038 is dead code. `ValueError` escapes from `read` for misaligned forwarders.

### Partition tables and boot sectors (`PartitionTable.py`, `BootSector.py`)
* The order of the usable LBAs is not checked (`C46_unordered_accepted`). An extended partition starting at 0 drops everything found before (`C49_zero_start_drops`). Sizes in an accepted boot sector need not be powers of two (C50).

### `MoveTable.py`, `WSL.py`
* A 512-byte tail after 4096-byte sectors is accepted (`C51_short_sector_accepted`). Zeroed slots raise `NotImplementedError`.
* An 8-byte LXXATTR record is dropped (`C52_short_record_dropped`). `DecodeUnixtime` raises `OverflowError` beyond the year 9999.

### FAT (`addons/FAT.py`)
* Damaged boot sectors can raise `TypeError` (`C54_type_error`).
* Deleted entries take any long name that precedes them, without checksum check (`C60_deleted_unchecked`).
* Orphan directories can be entered twice (`C63_orphan_entered_again`). A long-name slot with an empty name aborts the walk (`C64_aborted`).
* The checksum of a volume label is taken after its first byte was changed (1286-1289). FAT32 is accepted with any count of clusters, and its bytes per sector are not validated in the constructor. `OverflowError` is not caught in the walk.
* What Windows writes to entry 1 of a FAT32 volume in use (0x7FFFFFFF) is read as clean, because the four highest bits are ignored (`C111_windows`; a comment in the code says so).

### exFAT (`addons/exFAT.py`)
* The byte with the sector size is not protected by the checksum (`C66_sector_size_undetected`).
* Backups with 1024- or 2048-byte sectors are never tried (`C67_other_sector_sizes`); a valid region at the 512-byte place hides the 4096-byte backup (`C67_backup_4096_hidden`).
* Names that are cut to the recorded length are not checked (`C70_cut_name`).
* A short bitmap raises `IndexError` (`C71_short`).
* Orphan directories can be entered twice (`C72_orphan_entered_again`). A directory size that is not a multiple of 512 aborts the walk (`C73_aborted`).
* `mtime > ts` can compare with `None` (`TypeError`). The check at the heap offset compares against `cluster_count * sectors_per_cluster`.
* `get_ebs_signature` reads byte 508 of an extended boot sector; with sectors of more than 512 bytes the signature is not there (`C113_extended_refuted`).
* `get_oem_guid` and `get_oem_flash_parameters` read sector 10, which is reserved; the OEM parameters are in sector 9 and are never found (`C113_oem_ignored`).

### Scripts (`ntfs_parser`)
* One record of the journal with a name outside of it stops `--usn` with `ValueError`; the records after it are not listed (`C97_one_record_stops`).
* `--mft` silently leaves out a file record with a damaged attribute (`C98_record_left_out`), and stops at a `$STANDARD_INFORMATION` shorter than 32 bytes, at an LXATTRB with a bad timestamp or at a resident `$INDEX_ALLOCATION`; the records after it are not listed (`C98_listing_stops`). Names of alternate data streams are separated by spaces, which they can contain.
* `--indx` lists a file name that records another parent directory under the directory whose index it is in: the code for this case looks up the number of this same directory again, not of the recorded parent (`C99_wrong_parent`).
* `vsc_mount --list` handles only two exceptions: when a start block is valid but a control block is not where it says (or the offset is not a multiple of 16384), the exception is not caught (`C107_disabled` and `C107_invalid` say exactly when the two messages are printed). A slot with a type above 3 stops the list with an exception after the shadow copies before it (`C107_bad_slot`).
* `--log` stops at a record whose redo or undo data begins inside of its header (`C108_bad_data`, `C108_one_record_stops`) or which is about a file record segment at a negative position (`C108_negative_target`); the list of deleted files is then not written. A deletion whose record has no room for its clusters is left out of this list (`C108_deleted_left_out`).
* The output file is opened for writing after the input files are opened and before they are read: when it is one of them, this input is emptied (`C110_same_file`).
* NTFS stores any 16-bit units in names. Names with different lone surrogates are shown alike (`C116_surrogates_alike`), and the parts of two streams with such names are put together when the data of one is asked for (`C116_streams_mixed`).
* An image that ends before the end of the `$MFT` gives no list at all: `--all-mft` and `--indx` stop with an exception before the header is written, although the first records could be listed (`C119_all_or_nothing`).
* `str()` of a log record raises an exception when an offset is inside of the header of the record, even if there is no data at it (`C121_readable_without_text`); data at offset zero is read but shown with the length zero (`C121_zero_offset`), and equal redo and undo data at two offsets is shown as different (`C121_equal_shown_different`).
* A log file whose first restart page has an unknown version is refused with `NotImplementedError` although the second page is good (`C122_second_page_not_tried`), and a restart area near the end of its page raises `struct.error` (`C122_struct_error`).
* An image of an exFAT volume with large sectors that is cut inside of the first boot region raises `struct.error` (`C123_cut`).
* A volume with shadow copies that has a pointer of 2^63 or more raises `OverflowError`, which is not an exception of shadow copies (`C127_overflow`).
* A GUID partition table whose last sector has a signed header with huge counts raises `OverflowError` (`C124_overflow`).
* Opening a file table raises `AttributeError` or `struct.error` for a damaged volume record (`C125_attribute_error`, `C125_struct_error`).
* A FAT boot sector without a size of the table raises `TypeError` (`C126_type_error`), so that `fat_parser` stops without trying exFAT; a volume at an offset that is no multiple of 512 is never opened (`C126_offset`).
* The name of an extended attribute is printed with its null character (`C128_null_printed`).
* A selection of a shadow copy that fails because of damaged metadata leaves the parser with attributes of both shadow copies: its size is that of the one that failed (`C130_other_size`), and reading may raise `AttributeError` (`C130_attribute_error`).
* Reading the header of a GUID partition table twice with one object may give two different headers (`C131_other_header`), or a header after an exception (`C131_found_later`), when the second sector has no signature.
* After an iteration over the log records with recovery that was left before its end, an iteration without recovery reads the recovered copy (`C132_left`); after one with recovery to the end, an iteration without recovery may give records where a new parser raises `AttributeError` (`C132_mixed`).
* Executing the first pass over a file table again (`execute_first_pass` is public, and the constructor has already called it by default) appends the child segments of all records once more: their attributes, and so their paths, are listed twice (`C133_doubled`).
* A `FragmentedFile` seeks and reads the volume object in two steps and leaves it where the last cluster ended: two threads need two volume objects (`C134_threads`), and a user that reads the volume object on must seek first (`C134_volume_moved`).

## 8. Wrong programs

`seeded/LOG.jsonl` records 591 edits of the model that imitate realistic bugs.
Each was made in a scratch copy, which was then rebuilt.  A line lists the
definition, the edit, the claim it breaks, the theorems that failed, and the
theorems that were tightened because they had not failed at first.

## 9. Comparison of the model with the expectations of the tests

The scripts in `conformance/` evaluate the model on the files in `/repo/test_data` and compare the results with what `/repo/test_cases.py`
expects of the code; `conformance/README.md` lists what was compared.  Every comparison agreed.  This is a test of the model, not a proof, and it
runs nothing of `/repo`.
