/-
Model of the fields of a log file that the parser itself does not use: dfir_ntfs/LogFile.py:307-612, 1441-1550, 1781-1862.
-/
import Verif.Model.LogFile.Client
namespace Verif.LogFile

/-- A signed 64-bit field, `struct.unpack('<q', …)` (as in dfir_ntfs/LogFile.py:372-375). -/
def unpackSigned (bs : Bytes) : Except Exc Int := if bs.length = 8 then .ok (leInt bs) else .error .StructError

/-! ### Restart areas -/

/-- dfir_ntfs/LogFile.py:350-353 `get_flags`. -/
def areaFlags (area : Bytes) : Except Exc Nat := unpackLE 2 (slice area 14 16)
/-- dfir_ntfs/LogFile.py:360-363 `get_restart_area_length`. -/
def areaLength (area : Bytes) : Except Exc Nat := unpackLE 2 (slice area 20 22)
/-- dfir_ntfs/LogFile.py:370-373 `get_file_size`. -/
def areaFileSize (area : Bytes) : Except Exc Int := unpackSigned (slice area 24 32)
/-- dfir_ntfs/LogFile.py:375-378 `get_last_lsn_data_length`. -/
def lastLsnDataLength (area : Bytes) : Except Exc Nat := unpackLE 4 (slice area 32 36)
/-- dfir_ntfs/LogFile.py:390-393 `get_revision_number`. -/
def revisionNumber (area : Bytes) : Except Exc Nat := unpackLE 4 (slice area 40 44)

/-! ### Client records -/

/-- dfir_ntfs/LogFile.py:436-439 `get_prev_client`. -/
def prevClient (client : Bytes) : Except Exc Nat := unpackLE 2 (slice client 16 18)
/-- dfir_ntfs/LogFile.py:441-444 `get_next_client`. -/
def nextClient (client : Bytes) : Except Exc Nat := unpackLE 2 (slice client 18 20)
/-- dfir_ntfs/LogFile.py:446-449 `get_sequence_number`. -/
def clientSequenceNumber (client : Bytes) : Except Exc Nat := unpackLE 2 (slice client 20 22)
/-- dfir_ntfs/LogFile.py:451-454 `get_client_name_length`. -/
def clientNameLength (client : Bytes) : Except Exc Nat := unpackLE 4 (slice client 28 32)
/-- dfir_ntfs/LogFile.py:456-460 `get_client_name`: decoded without an error handler. -/
def clientName (client : Bytes) : Except Exc Str :=
  match clientNameLength client with
  | .error e => .error e
  | .ok n =>
    match utf16DecodeStrict (slice client 32 (32 + n)) with
    | none => .error .UnicodeDecodeError
    | some s => .ok s

/-! ### Pages and records -/

/-- dfir_ntfs/LogFile.py:514-517 `get_flags`. -/
def LogRecordPage.flags (p : LogRecordPage) : Nat := u32 p.buf 16
/-- dfir_ntfs/LogFile.py:519-522 `get_page_count`. -/
def LogRecordPage.pageCount (p : LogRecordPage) : Nat := u16 p.buf 20
/-- dfir_ntfs/LogFile.py:524-527 `get_page_position`. -/
def LogRecordPage.pagePosition (p : LogRecordPage) : Nat := u16 p.buf 22
/-- dfir_ntfs/LogFile.py:529-532 `get_next_record_offset`. -/
def LogRecordPage.nextRecordOffset (p : LogRecordPage) : Nat := u16 p.buf 24
/-- dfir_ntfs/LogFile.py:609-612 `get_flags`. -/
def recordFlags (record : Bytes) : Nat := u16 record 40

/-! ### NTFS restart areas; the buffer has at least 64 bytes -/

/-- dfir_ntfs/LogFile.py:1462-1465 `get_minor_version`. -/
def areaMinorVersion (buf : Bytes) : Nat := u32 buf 4
/-- dfir_ntfs/LogFile.py:1492-1495 `get_open_attribute_table_length`. -/
def openAttributeTableLength (buf : Bytes) : Nat := u32 buf 48
/-- dfir_ntfs/LogFile.py:1497-1500 `get_attribute_names_length`. -/
def attributeNamesLength (buf : Bytes) : Nat := u32 buf 52
/-- dfir_ntfs/LogFile.py:1502-1505 `get_dirty_page_table_length`. -/
def dirtyPageTableLength (buf : Bytes) : Nat := u32 buf 56
/-- dfir_ntfs/LogFile.py:1507-1510 `get_transaction_table_length`. -/
def transactionTableLength (buf : Bytes) : Nat := u32 buf 60
/-- dfir_ntfs/LogFile.py:1512-1516 `get_usn_journal_restart_offset`. -/
def usnJournalRestartOffset (buf : Bytes) : Option Int := if buf.length ≥ 72 then some (leInt (slice buf 64 72)) else none
/-- dfir_ntfs/LogFile.py:1518-1522 `get_last_lsn`. -/
def areaLastLsn (buf : Bytes) : Option Nat := if buf.length ≥ 80 then some (u64 buf 72) else none
/-- dfir_ntfs/LogFile.py:1530-1534 `get_usn_journal_reference`. -/
def usnJournalReference (buf : Bytes) : Option Nat := if buf.length ≥ 96 then some (u64 buf 88) else none
/-- dfir_ntfs/LogFile.py:1536-1542 `get_usn_base`. -/
def usnBase (buf : Bytes) : Option Int := if buf.length ≥ 104 then some (leInt (slice buf 96 104)) else none
/-- dfir_ntfs/LogFile.py:1544-1548 `get_oldest_lsn`. -/
def areaOldestLsn (buf : Bytes) : Option Nat := if buf.length ≥ 112 then some (u64 buf 104) else none

/-! ### Entries of the table of open attributes -/

/-- dfir_ntfs/LogFile.py:1787-1791 `OpenAttributeEntry1.__init__`. -/
def openAttributeEntry1 (raw : Bytes) : Except Exc Bytes := if raw.length < 40 then .error .ClientException else .ok raw
/-- dfir_ntfs/LogFile.py:1828-1832 `OpenAttributeEntry0.__init__`. -/
def openAttributeEntry0 (raw : Bytes) : Except Exc Bytes := if raw.length < 44 then .error .ClientException else .ok raw
/-- dfir_ntfs/LogFile.py:1793-1796, 1834-1837 `get_allocated_or_next_free`. -/
def allocatedOrNextFree (entry : Bytes) : Nat := u32 entry 0
/-- dfir_ntfs/LogFile.py:1798-1801 `OpenAttributeEntry1.get_bytes_per_index_buffer`. -/
def bytesPerIndexBuffer1 (entry : Bytes) : Nat := u32 entry 4
/-- dfir_ntfs/LogFile.py:1803-1806 `OpenAttributeEntry1.get_attribute_type_code`. -/
def openTypeCode1 (entry : Bytes) : Nat := u32 entry 8
/-- dfir_ntfs/LogFile.py:1810-1813 `OpenAttributeEntry1.get_file_reference`. -/
def openReference1 (entry : Bytes) : Nat := u64 entry 16
/-- dfir_ntfs/LogFile.py:1815-1818 `OpenAttributeEntry1.get_lsn_of_open_record`. -/
def openLsn1 (entry : Bytes) : Nat := u64 entry 24
/-- dfir_ntfs/LogFile.py:1839-1842 `OpenAttributeEntry0.get_table_index`. -/
def openTableIndex0 (entry : Bytes) : Nat := u32 entry 4
/-- dfir_ntfs/LogFile.py:1844-1847 `OpenAttributeEntry0.get_file_reference`. -/
def openReference0 (entry : Bytes) : Nat := u64 entry 8
/-- dfir_ntfs/LogFile.py:1849-1852 `OpenAttributeEntry0.get_lsn_of_open_record`. -/
def openLsn0 (entry : Bytes) : Nat := u64 entry 16
/-- dfir_ntfs/LogFile.py:1854-1857 `OpenAttributeEntry0.get_attribute_type_code`. -/
def openTypeCode0 (entry : Bytes) : Nat := u32 entry 28
/-- dfir_ntfs/LogFile.py:1859-1862 `OpenAttributeEntry0.get_bytes_per_index_buffer`. -/
def bytesPerIndexBuffer0 (entry : Bytes) : Nat := u32 entry 40

end Verif.LogFile
