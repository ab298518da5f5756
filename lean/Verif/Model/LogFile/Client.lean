/-
Model of dfir_ntfs/LogFile.py:1277-1319 and 1402-1900: the data of log records, NTFS restart areas, NTFS
log records and the dumps of tables.  `ResolveNTFSOperation` is in `Scripts/Log.lean`; not modelled: `__str__`.
-/
import Verif.Model.LogFile.Pages
import Verif.Basic.Utf16
namespace Verif.LogFile

/-- A `ClientData` object (dfir_ntfs/LogFile.py:1402-1426) without the cluster size. -/
structure ClientData where
  buf : Bytes
  recordType : Nat
  lsn : Nat
  transactionId : Nat
  deriving DecidableEq

/-- dfir_ntfs/LogFile.py:1296-1316, the loop of `get_client_data`: `left` bytes are still to be read,
`buf` has been read, `n` is the number of the last page.  The loop gets a number of steps, and the
result is `none` when they do not suffice. -/
def Parser.clientDataLoop (p : Parser) (file : Bytes) : Nat → Nat → Bytes → Int → Option (Except Exc Bytes)
  | 0, _, _, _ => none
  | fuel + 1, n, buf, left =>
    if left > 0 then
      match (if (n + 1) * p.logPageSize ≥ p.fileSize then p.wrappedPage else .ok (n + 1)) with   -- 1297-1301
      | .error e => some (.error e)
      | .ok n =>
        match p.getPage file n with                                                     -- 1303
        | .error e => some (.error e)
        | .ok none => some (.ok buf)                                                    -- 1304-1305
        | .ok (some page) =>
          let more := if left ≥ (p.logPageSize : Int) - p.logPageDataOffset then page.buf.drop p.logPageDataOffset  -- 1308
            else slice page.buf p.logPageDataOffset (p.logPageDataOffset + left.toNat)  -- 1310
          p.clientDataLoop file fuel n (buf ++ more) (left - more.length)               -- 1312-1314
    else some (.ok buf)

/-- dfir_ntfs/LogFile.py:1277-1319 `get_client_data`.  A missing page is `None`, and the call of its
method raises AttributeError. -/
def Parser.getClientData (p : Parser) (file : Bytes) (fuel : Nat) (lsn : Nat) : Option (Except Exc ClientData) :=
  match p.getPage file (p.lsnToOffset lsn).1 with                                       -- 1282
  | .error e => some (.error e)
  | .ok none => some (.error .AttributeError)
  | .ok (some page) =>
    match page.recordAt (p.lsnToOffset lsn).2 p.recordHeaderLength with                 -- 1283
    | .error e => some (.error e)
    | .ok record =>
      if (clientDataLength record : Int) ≤ (p.logPageSize : Int) - (p.lsnToOffset lsn).2 - p.recordHeaderLength then  -- 1287
        some (.ok ⟨slice record p.recordHeaderLength (p.recordHeaderLength + clientDataLength record),
          recordType record, lsn, transactionId record⟩)
      else
        let buf := record.drop p.recordHeaderLength                                     -- 1294
        match p.clientDataLoop file fuel (p.lsnToOffset lsn).1 buf (clientDataLength record - buf.length) with
        | none => none
        | some (.error e) => some (.error e)
        | some (.ok buf) => some (.ok ⟨buf, recordType record, lsn, transactionId record⟩)

/-- What `data_decoded` returns (dfir_ntfs/LogFile.py:1428-1436). -/
inductive Decoded where
  | restartArea (buf : Bytes) (lsn : Nat)
  | logRecord (buf : Bytes) (lsn transactionId : Nat)
  deriving DecidableEq

/-- dfir_ntfs/LogFile.py:1428-1436 `data_decoded`, with 1450-1455 `NTFSRestartArea.__init__` and
1574-1582 `NTFSLogRecord.__init__` (`LfsClientRestart = 2`, `LfsClientRecord = 1`). -/
def ClientData.decoded (c : ClientData) : Except Exc Decoded :=
  if c.recordType = 2 then
    if c.buf.length < 64 then .error .ClientException else .ok (.restartArea c.buf c.lsn)
  else if c.recordType = 1 then
    if c.buf.length < 32 then .error .ClientException else .ok (.logRecord c.buf c.lsn c.transactionId)
  else .error .NotImplementedError

/-! ### NTFS restart areas (dfir_ntfs/LogFile.py:1441-1548); the buffer has at least 64 bytes -/

/-- dfir_ntfs/LogFile.py:1457-1460 `get_major_version`. -/
def areaMajorVersion (buf : Bytes) : Nat := u32 buf 0
/-- dfir_ntfs/LogFile.py:1467-1470 `get_start_of_checkpoint_lsn`. -/
def startOfCheckpointLsn (buf : Bytes) : Nat := u64 buf 8
/-- dfir_ntfs/LogFile.py:1472-1475 `get_open_attribute_table_lsn`. -/
def openAttributeTableLsn (buf : Bytes) : Nat := u64 buf 16
/-- dfir_ntfs/LogFile.py:1477-1480 `get_attribute_names_lsn`. -/
def attributeNamesLsn (buf : Bytes) : Nat := u64 buf 24
/-- dfir_ntfs/LogFile.py:1482-1485 `get_dirty_page_table_lsn`. -/
def dirtyPageTableLsn (buf : Bytes) : Nat := u64 buf 32
/-- dfir_ntfs/LogFile.py:1487-1490 `get_transaction_table_lsn`. -/
def transactionTableLsn (buf : Bytes) : Nat := u64 buf 40
/-- dfir_ntfs/LogFile.py:1524-1528 `get_bytes_per_cluster`. -/
def bytesPerCluster (buf : Bytes) : Option Nat := if buf.length ≥ 84 then some (u32 buf 80) else none

/-! ### NTFS log records (dfir_ntfs/LogFile.py:1553-1746); the buffer has at least 32 bytes -/

/-- dfir_ntfs/LogFile.py:1584-1587 `get_redo_operation`. -/
def redoOperation (buf : Bytes) : Nat := u16 buf 0
/-- dfir_ntfs/LogFile.py:1589-1592 `get_undo_operation`. -/
def undoOperation (buf : Bytes) : Nat := u16 buf 2
/-- dfir_ntfs/LogFile.py:1603-1606 `get_redo_length`. -/
def redoLength (buf : Bytes) : Nat := u16 buf 6
/-- dfir_ntfs/LogFile.py:1617-1620 `get_undo_length`. -/
def undoLength (buf : Bytes) : Nat := u16 buf 10
/-- dfir_ntfs/LogFile.py:1622-1625 `get_target_attribute`. -/
def targetAttribute (buf : Bytes) : Nat := u16 buf 12
/-- dfir_ntfs/LogFile.py:1627-1630 `get_lcns_to_follow`. -/
def lcnsToFollow (buf : Bytes) : Nat := u16 buf 14
/-- dfir_ntfs/LogFile.py:1632-1635 `get_record_offset`. -/
def recordOffset (buf : Bytes) : Nat := u16 buf 16
/-- dfir_ntfs/LogFile.py:1637-1640 `get_attribute_offset`. -/
def attributeOffset (buf : Bytes) : Nat := u16 buf 18
/-- dfir_ntfs/LogFile.py:1642-1645 `get_cluster_block_offset`. -/
def clusterBlockOffset (buf : Bytes) : Nat := u16 buf 20
/-- dfir_ntfs/LogFile.py:1647-1653 `get_target_block_size`. -/
def targetBlockSize (buf : Bytes) : Nat := u16 buf 22
/-- dfir_ntfs/LogFile.py:1655-1658 `get_target_vcn`. -/
def targetVcn (buf : Bytes) : Int := leInt (slice buf 24 32)

/-- dfir_ntfs/LogFile.py:1594-1601 `get_redo_offset`. -/
def redoOffset (buf : Bytes) : Except Exc Nat :=
  if u16 buf 4 > 0 ∧ u16 buf 4 < 32 then .error .ClientException else .ok (u16 buf 4)
/-- dfir_ntfs/LogFile.py:1608-1615 `get_undo_offset`. -/
def undoOffset (buf : Bytes) : Except Exc Nat :=
  if u16 buf 8 > 0 ∧ u16 buf 8 < 32 then .error .ClientException else .ok (u16 buf 8)

/-- dfir_ntfs/LogFile.py:1663-1675, the loop of `get_lcns_for_page`: `n` numbers are left. -/
def lcnsLoop (buf : Bytes) : Nat → Nat → List Int → Except Exc (List Int)
  | 0, _, lcns => .ok lcns
  | n + 1, i, lcns =>
    let raw := slice buf (32 + i * 8) (40 + i * 8)
    if raw.length ≠ 8 then .error .ClientException else lcnsLoop buf n (i + 1) (lcns ++ [leInt raw])

/-- dfir_ntfs/LogFile.py:1660-1677 `get_lcns_for_page`. -/
def lcnsForPage (buf : Bytes) : Except Exc (List Int) := lcnsLoop buf (lcnsToFollow buf) 0 []

/-- dfir_ntfs/LogFile.py:1679-1687 `get_redo_data`. -/
def redoData (buf : Bytes) : Except Exc Bytes :=
  if redoLength buf = 0 then .ok []
  else
    match redoOffset buf with
    | .error e => .error e
    | .ok o => .ok (slice buf o (o + redoLength buf))
/-- dfir_ntfs/LogFile.py:1689-1697 `get_undo_data`. -/
def undoData (buf : Bytes) : Except Exc Bytes :=
  if undoLength buf = 0 then .ok []
  else
    match undoOffset buf with
    | .error e => .error e
    | .ok o => .ok (slice buf o (o + undoLength buf))

/-- dfir_ntfs/LogFile.py:82 `LOGGED_RESIDENT_UPDATES`. -/
def residentUpdates : List Nat :=
  [0x02, 0x03, 0x04, 0x05, 0x06, 0x07, 0x09, 0x0B, 0x0C, 0x0D, 0x11, 0x13, 0x21, 0x23, 0x25]
/-- dfir_ntfs/LogFile.py:86 `LOGGED_NONRESIDENT_UPDATES`. -/
def nonresidentUpdates : List Nat := [0x08, 0x0E, 0x0F, 0x10, 0x12, 0x14, 0x15, 0x16, 0x22, 0x24]

/-- dfir_ntfs/LogFile.py:1699-1714 `calculate_mft_target_number`. -/
def mftTargetNumber (buf : Bytes) (clusterSize : Nat) : Option Int :=
  if redoOperation buf ∈ residentUpdates ∨ undoOperation buf ∈ residentUpdates then
    some ((targetVcn buf * clusterSize + clusterBlockOffset buf * 512).fdiv
      (if targetBlockSize buf > 0 then targetBlockSize buf * 512 else 1024 : Nat))
  else none

/-- dfir_ntfs/LogFile.py:1716-1723 `calculate_offset_in_target`. -/
def offsetInTarget (buf : Bytes) (clusterSize : Nat) : Option Int :=
  if redoOperation buf ∈ residentUpdates ∨ undoOperation buf ∈ residentUpdates then
    some (attributeOffset buf + recordOffset buf : Nat)
  else if redoOperation buf ∈ nonresidentUpdates ∨ undoOperation buf ∈ nonresidentUpdates then
    some (targetVcn buf * clusterSize + clusterBlockOffset buf * 512 + attributeOffset buf + recordOffset buf)
  else none

/-! ### Dumps of tables -/

/-- dfir_ntfs/LogFile.py:1787-1791, 1828-1832: the constructors of `OpenAttributeEntry1` and
`OpenAttributeEntry0`, and 1810-1813, 1844-1847: their `get_file_reference`. -/
def openAttributeReference (version : Nat) (buf : Bytes) : Except Exc Nat :=
  if version ≥ 1 then (if buf.length < 40 then .error .ClientException else .ok (u64 buf 16))
  else (if buf.length < 44 then .error .ClientException else .ok (u64 buf 8))

/-- dfir_ntfs/LogFile.py:1935-1941, 1943-1952 `OpenAttributeTableDumpParser.find_file_reference_by_index`. -/
def findFileReference (version : Nat) (dump : Bytes) (index : Nat) : Except Exc Nat :=
  if index ≥ dump.length then .error .ClientException
  else openAttributeReference version (dump.drop index)

/-- dfir_ntfs/LogFile.py:1911-1924, the loop of `AttributeNamesDumpParser.find_name_by_index` on what is
left of the dump (an entry needs eight bytes, 1870-1874; `get_name` 1886-1892; `calculate_sizeof`
1894-1897). -/
def findNameLoop (rest : Bytes) (index : Nat) : Option Str :=
  if rest.length < 8 then none                                     -- also the condition of the loop
  else if u16 rest 0 = index then some (utf16Decode (slice rest 4 (4 + u16 rest 2)))
  else findNameLoop (rest.drop (4 + u16 rest 2 + 2)) index
termination_by rest.length
decreasing_by rw [List.length_drop]; omega

/-- dfir_ntfs/LogFile.py:1908-1924 `find_name_by_index`. -/
def findName (dump : Bytes) (index : Nat) : Option Str := findNameLoop dump index

end Verif.LogFile
