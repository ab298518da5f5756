/-
Model of dfir_ntfs/LogFile.py:231-768: restart pages, log record pages, log record headers, the
constructor of the parser and the LSN arithmetic.  Not modelled: the `__str__` methods, the getters
that nothing else uses, and the decoding of client names.
-/
import Verif.Model.UpdateSequence
namespace Verif.LogFile

/-- dfir_ntfs/LogFile.py:12 `PAGE_SIZE`. -/
def pageSize : Nat := 4096

/-- The subclasses of `LogFileException` (dfir_ntfs/LogFile.py:187-229): what
`except LogFileException` catches. -/
def isLogFileException : Exc → Bool
  | .LogFileException | .UpdateSequenceArrayException | .RestartPageException | .EmptyLogFileException
  | .RestartAreaException | .ClientRecordException | .LogRecordPageException | .ClientException => true
  | _ => false

/-! ### Restart pages -/

/-- dfir_ntfs/LogFile.py:269-302: the getters of a restart page (its buffer is at least 1024 bytes long,
so they cannot fail). -/
def chkdskLsn (page : Bytes) : Nat := u64 page 8
/-- dfir_ntfs/LogFile.py:274-277 `get_system_page_size`. -/
def systemPageSize (page : Bytes) : Nat := u32 page 16
/-- dfir_ntfs/LogFile.py:279-282 `get_log_page_size`. -/
def restartLogPageSize (page : Bytes) : Nat := u32 page 20
/-- dfir_ntfs/LogFile.py:284-287 `get_restart_offset`. -/
def restartOffset (page : Bytes) : Nat := u16 page 24
/-- dfir_ntfs/LogFile.py:299-302 `RestartPage.get_minor_version`. -/
def minorVersion (page : Bytes) : Nat := u16 page 26
/-- dfir_ntfs/LogFile.py:294-297 `RestartPage.get_major_version`. -/
def majorVersion (page : Bytes) : Nat := u16 page 28

/-- dfir_ntfs/LogFile.py:237-267 `RestartPage.__init__`: the buffer. -/
def restartPage (raw : Bytes) : Except Exc Bytes :=
  match unprotectSectors raw with                                                         -- 238
  | .error e => .error e
  | .ok (buf, _) =>
    if slice buf 0 4 ∉ ([[0x52, 0x53, 0x54, 0x52], [0x43, 0x48, 0x4B, 0x44], [0x42, 0x41, 0x41, 0x44]] : List Bytes) then
      .error .RestartPageException                                                        -- 242
    else if (majorVersion buf, minorVersion buf) ∉ [(1, 1), (2, 0), (3, 0)] then .error .NotImplementedError  -- 248
    else if systemPageSize buf < 1024 ∨ systemPageSize buf % 512 ≠ 0 then .error .RestartPageException    -- 252
    else if systemPageSize buf ≠ pageSize then .error .NotImplementedError                -- 255
    else if restartLogPageSize buf < 1024 ∨ restartLogPageSize buf % 512 ≠ 0 then .error .RestartPageException -- 259
    else if restartLogPageSize buf ≠ pageSize then .error .NotImplementedError            -- 262
    else if restartOffset buf = 0 ∨ restartOffset buf % 8 ≠ 0 ∨ restartOffset buf ≥ buf.length
        ∨ restartOffset buf ≥ systemPageSize buf then .error .RestartPageException        -- 266
    else .ok buf

/-! ### Restart areas -/

/-- dfir_ntfs/LogFile.py:330-393: the getters of a restart area.  The area is what is left of the page
from the restart offset on; it can be too short for a getter. -/
def currentLsn (area : Bytes) : Except Exc Nat := unpackLE 8 (slice area 0 8)
/-- dfir_ntfs/LogFile.py:335-338 `get_log_clients`. -/
def logClients (area : Bytes) : Except Exc Nat := unpackLE 2 (slice area 8 10)
/-- dfir_ntfs/LogFile.py:340-343 `get_client_free_list`. -/
def clientFreeList (area : Bytes) : Except Exc Nat := unpackLE 2 (slice area 10 12)
/-- dfir_ntfs/LogFile.py:345-348 `get_client_in_use_list`. -/
def clientInUseList (area : Bytes) : Except Exc Nat := unpackLE 2 (slice area 12 14)
/-- dfir_ntfs/LogFile.py:355-358 `get_sequence_number_bits`. -/
def sequenceNumberBits (area : Bytes) : Except Exc Nat := unpackLE 4 (slice area 16 20)
/-- dfir_ntfs/LogFile.py:365-368 `get_client_array_offset`. -/
def clientArrayOffset (area : Bytes) : Except Exc Nat := unpackLE 2 (slice area 22 24)
/-- dfir_ntfs/LogFile.py:380-383 `get_record_header_length`. -/
def recordHeaderLength (area : Bytes) : Except Exc Nat := unpackLE 2 (slice area 36 38)
/-- dfir_ntfs/LogFile.py:385-388 `get_log_page_data_offset`. -/
def logPageDataOffset (area : Bytes) : Except Exc Nat := unpackLE 2 (slice area 38 40)

/-- dfir_ntfs/LogFile.py:313-328 `RestartArea.__init__` (`LFS_NO_CLIENT = 0xFFFF`). -/
def restartArea (area : Bytes) (systemPageSize : Nat) : Except Exc Bytes := do
  let arrayOffset ← clientArrayOffset area                                                -- 316
  if arrayOffset = 0 ∨ arrayOffset % 8 ≠ 0 ∨ arrayOffset ≥ area.length ∨ arrayOffset ≥ systemPageSize then
    .error .RestartAreaException                                                          -- 318
  else
    let clients ← logClients area
    let free ← clientFreeList area
    let inUse ← clientInUseList area
    if free ≠ 0xFFFF ∧ free ≥ clients then .error .RestartAreaException                   -- 324
    else if inUse ≠ 0xFFFF ∧ inUse ≥ clients then .error .RestartAreaException            -- 327
    else .ok area

/-- dfir_ntfs/LogFile.py:289-292 `get_restart_area`. -/
def getRestartArea (page : Bytes) : Except Exc Bytes :=
  restartArea (page.drop (restartOffset page)) (systemPageSize page)

/-- dfir_ntfs/LogFile.py:419-424 `ClientRecord.__init__`. -/
def clientRecord (buf : Bytes) : Except Exc Bytes :=
  match unpackLE 4 (slice buf 28 32) with
  | .error e => .error e
  | .ok nameLength => if nameLength > 128 then .error .ClientRecordException else .ok buf

/-- dfir_ntfs/LogFile.py:426-434: the two LSNs of a client record that `collect_lsns` uses. -/
def clientOldestLsn (client : Bytes) : Except Exc Nat := unpackLE 8 (slice client 0 8)
/-- dfir_ntfs/LogFile.py:431-434 `get_client_restart_lsn`. -/
def clientRestartLsn (client : Bytes) : Except Exc Nat := unpackLE 8 (slice client 8 16)

/-- dfir_ntfs/LogFile.py:395-405 `clients`: `n` records are left, the next one is `i`. -/
def clientsLoop (area : Bytes) (arrayOffset : Nat) : Nat → Nat → Gen Bytes
  | 0, _ => .done
  | n + 1, i =>
    match clientRecord (area.drop (i * 160 + arrayOffset)) with
    | .error e => .fail e
    | .ok c => .cons c (clientsLoop area arrayOffset n (i + 1))

/-- dfir_ntfs/LogFile.py:395-405 `RestartArea.clients`. -/
def clients (area : Bytes) : Gen Bytes :=
  match logClients area with
  | .error e => .fail e
  | .ok n =>
    match clientArrayOffset area with
    | .error e => .fail e
    | .ok o => clientsLoop area o n 0

/-! ### Log record pages -/

/-- A constructed `LogRecordPage` (dfir_ntfs/LogFile.py:465-496). -/
structure LogRecordPage where
  buf : Bytes
  bufProtected : Bytes
  endOfUsa : Nat
  dataOffset : Nat
  pageNumber : Nat
  deriving DecidableEq

/-- dfir_ntfs/LogFile.py:483-496 `LogRecordPage.__init__`. -/
def LogRecordPage.init (raw : Bytes) (number dataOffset : Nat) : Except Exc LogRecordPage :=
  match unprotectSectors raw with                                                         -- 484
  | .error e => .error e
  | .ok (buf, endOfUsa) =>
    if slice buf 0 4 ∉ ([[0x52, 0x43, 0x52, 0x44], [0x43, 0x48, 0x4B, 0x44], [0x42, 0x41, 0x41, 0x44]] : List Bytes) then
      .error .LogRecordPageException                                                      -- 488
    else if dataOffset < 8 ∨ dataOffset < endOfUsa ∨ dataOffset % 8 ≠ 0 then .error .NotImplementedError  -- 493
    else .ok ⟨buf, raw, endOfUsa, dataOffset, number⟩

/-- dfir_ntfs/LogFile.py:498-501 `get_last_lsn`. -/
def LogRecordPage.lastLsn (p : LogRecordPage) : Nat := u64 p.buf 8
/-- dfir_ntfs/LogFile.py:503-506 `get_file_offset_11`. -/
def LogRecordPage.fileOffset11 (p : LogRecordPage) : Int := leInt (slice p.buf 8 16)
/-- dfir_ntfs/LogFile.py:508-512 `get_file_offset_2x`. -/
def LogRecordPage.fileOffset2x (p : LogRecordPage) : Option Nat := if p.endOfUsa ≤ 60 then some (u32 p.buf 60) else none
/-- dfir_ntfs/LogFile.py:534-537 `get_last_end_lsn`. -/
def LogRecordPage.lastEndLsn (p : LogRecordPage) : Nat := u64 p.buf 32

/-- dfir_ntfs/LogFile.py:559-572 `LogRecordHeader.__init__` with a header length: the buffer. -/
def logRecordHeader (buf : Bytes) (headerLength : Nat) : Except Exc Bytes :=
  if headerLength < 48 then .error .NotImplementedError                                   -- 563
  else if headerLength < 8 ∨ headerLength % 8 ≠ 0 then .error .LogFileException           -- 569
  else if buf.length < headerLength then .error .LogFileException                         -- 572
  else .ok buf

/-- dfir_ntfs/LogFile.py:539-545 `get_log_record_at_offset`. -/
def LogRecordPage.recordAt (p : LogRecordPage) (offset headerLength : Nat) : Except Exc Bytes :=
  if offset < p.dataOffset then .error .LogFileException
  else logRecordHeader (p.buf.drop offset) headerLength

/-- dfir_ntfs/LogFile.py:574-607: the getters of a log record header (at least 48 bytes long). -/
def thisLsn (record : Bytes) : Nat := u64 record 0
/-- dfir_ntfs/LogFile.py:579-582 `get_client_previous_lsn`. -/
def clientPreviousLsn (record : Bytes) : Nat := u64 record 8
/-- dfir_ntfs/LogFile.py:584-587 `get_client_undo_next_lsn`. -/
def clientUndoNextLsn (record : Bytes) : Nat := u64 record 16
/-- dfir_ntfs/LogFile.py:589-592 `get_client_data_length`. -/
def clientDataLength (record : Bytes) : Nat := u32 record 24
/-- dfir_ntfs/LogFile.py:594-597 `get_client_id`. -/
def clientId (record : Bytes) : Nat := u32 record 28
/-- dfir_ntfs/LogFile.py:599-602 `get_record_type`. -/
def recordType (record : Bytes) : Nat := u32 record 32
/-- dfir_ntfs/LogFile.py:604-607 `get_transaction_id`. -/
def transactionId (record : Bytes) : Nat := u32 record 36

/-! ### The parser -/

/-- A constructed `LogFileParser` (dfir_ntfs/LogFile.py:617-718) except for its file object, whose
contents are passed around, and for what `collect_lsns` adjusts. -/
structure Parser where
  fileSize : Nat
  restartPage1 : Option Bytes
  restartPage2 : Option Bytes
  logPageSize : Nat
  logVersion : Nat × Nat
  recordHeaderLength : Nat
  logPageDataOffset : Nat
  sequenceNumberBits : Nat
  deriving DecidableEq

/-- dfir_ntfs/LogFile.py:667-675: `except LogFileException: ... = None`. -/
def tryRestartPage (raw : Bytes) : Except Exc (Option Bytes) :=
  match restartPage raw with
  | .ok buf => .ok (some buf)
  | .error e => if isLogFileException e then .ok none else .error e

/-- dfir_ntfs/LogFile.py:677-702: the page size, the version and the restart area to use.  (With one
valid page its area is used; with two the area of the first, after a comparison of two fields.) -/
def chooseRestart (p1 p2 : Option Bytes) : Except Exc (Nat × (Nat × Nat) × Bytes) :=
  match p1, p2 with
  | none, none => .error .LogFileException                                                -- 677
  | none, some b => (getRestartArea b).map fun a => (restartLogPageSize b, (majorVersion b, minorVersion b), a)
  | some a, none => (getRestartArea a).map fun r => (restartLogPageSize a, (majorVersion a, minorVersion a), r)
  | some a, some b =>
    match getRestartArea a with                                                           -- 693
    | .error e => .error e
    | .ok r =>
      if restartLogPageSize a ≠ restartLogPageSize b then .error .LogFileException        -- 697
      else if (majorVersion a, minorVersion a) ≠ (majorVersion b, minorVersion b) then .error .LogFileException -- 701
      else .ok (restartLogPageSize a, (majorVersion a, minorVersion a), r)

/-- dfir_ntfs/LogFile.py:704-718: the rest of the constructor (`LogRecordHeader.sizeof = 48`). -/
def finishInit (fileSize : Nat) (p1 p2 : Option Bytes) (logPageSize : Nat) (version : Nat × Nat) (area : Bytes) :
    Except Exc Parser := do
  let headerLength ← recordHeaderLength area
  if headerLength < 48 then .error .LogFileException                                      -- 708
  else
    let dataOffset ← logPageDataOffset area                                               -- 711
    let bits ← sequenceNumberBits area                                                    -- 713
    if bits ≥ 64 ∨ bits < 3 then .error .LogFileException                                 -- 714
    else .ok ⟨fileSize, p1, p2, logPageSize, version, headerLength, dataOffset, bits⟩

/-- dfir_ntfs/LogFile.py:650-718 `LogFileParser.__init__`. -/
def Parser.init (file : Bytes) : Except Exc Parser :=
  let raw1 := slice file 0 pageSize                                                       -- 657-659
  let raw2 := slice file pageSize (2 * pageSize)
  if raw1.length ≠ pageSize ∨ raw2.length ≠ pageSize then .error .LogFileException        -- 661
  else if raw1 = raw2 ∧ raw2 = List.replicate pageSize 0xFF then .error .EmptyLogFileException  -- 664
  else
    match tryRestartPage raw1 with
    | .error e => .error e
    | .ok p1 =>
      match tryRestartPage raw2 with
      | .error e => .error e
      | .ok p2 =>
        match chooseRestart p1 p2 with
        | .error e => .error e
        | .ok (size, version, area) => finishInit file.length p1 p2 size version area

/-- dfir_ntfs/LogFile.py:720-728 `lsn_to_offset`: (page number, offset in the page). -/
def Parser.lsnToOffset (p : Parser) (lsn : Nat) : Nat × Nat :=
  let absolute := ((lsn <<< p.sequenceNumberBits) &&& 0xFFFFFFFFFFFFFFFF) >>> (p.sequenceNumberBits - 3)
  (absolute / p.logPageSize, absolute % p.logPageSize)

/-- dfir_ntfs/LogFile.py:730-733 `lsn_to_seqnum`. -/
def Parser.lsnToSeqnum (p : Parser) (lsn : Nat) : Nat := lsn >>> (64 - p.sequenceNumberBits)

/-- dfir_ntfs/LogFile.py:735-740 `offset_to_lsn`. -/
def Parser.offsetToLsn (p : Parser) (page offset seqnum : Nat) : Nat :=
  ((page * p.logPageSize + offset) >>> 3) ||| (seqnum <<< (64 - p.sequenceNumberBits))

/-- dfir_ntfs/LogFile.py:742-756 `get_log_record_page_by_number` (`file`: the current contents of the
file object). -/
def Parser.getPage (p : Parser) (file : Bytes) (number : Nat) : Except Exc (Option LogRecordPage) :=
  match seekRead file (number * p.logPageSize) p.logPageSize with                         -- 745-746
  | .error e => .error e
  | .ok buf =>
    if buf.length ≠ p.logPageSize then .ok none                                           -- 748
    else
      match LogRecordPage.init buf number p.logPageDataOffset with                        -- 751-755
      | .ok page => .ok (some page)
      | .error e => if isLogFileException e ∨ e = .NotImplementedError then .ok none else .error e

/-- dfir_ntfs/LogFile.py:758-768 `get_wrapped_log_record_page_number`. -/
def Parser.wrappedPage (p : Parser) : Except Exc Nat :=
  if p.logVersion.1 = 1 ∧ p.logVersion.2 = 1 then .ok 4
  else if p.logVersion.1 ≥ 2 then .ok 34
  else .error .NotImplementedError

end Verif.LogFile
