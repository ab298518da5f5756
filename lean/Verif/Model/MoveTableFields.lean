/-
Model of the fields of a move table that the parser itself does not use: dfir_ntfs/MoveTable.py:72-302.  A GUID is given as its 16 bytes.
-/
import Verif.Model.MoveTable
import Verif.Model.Scripts.Move
namespace Verif.MoveTable

/-! ### Header: a sector -/

/-- dfir_ntfs/MoveTable.py:77-80 `get_unknown_16`. -/
def headerUnknown16 (buf : Bytes) : Nat := u32 buf 16
/-- dfir_ntfs/MoveTable.py:82-85 `get_flags`. -/
def headerFlags (buf : Bytes) : Nat := u32 buf 20
/-- dfir_ntfs/MoveTable.py:87-90 `is_log_flushed` (`FLAG_LOG_IS_FLUSHED` is 1, line 13). -/
def isLogFlushed (buf : Bytes) : Bool := headerFlags buf &&& 1 > 0
/-- dfir_ntfs/MoveTable.py:92-95 `get_unknown_24`. -/
def headerUnknown24 (buf : Bytes) : Nat := u32 buf 24

/-- dfir_ntfs/MoveTable.py:19 `ExpansionData`. -/
structure ExpansionData where
  lowest : Nat
  highest : Nat
  fileSize : Nat
  deriving DecidableEq, Repr

/-- dfir_ntfs/MoveTable.py:97-101 `get_expansion_data`. -/
def expansionData (buf : Bytes) : ExpansionData := ⟨u32 buf 28, u32 buf 32, u32 buf 36⟩

/-- dfir_ntfs/MoveTable.py:20 `ExtendedHeader`; the seven log entry indices are a list. -/
structure ExtendedHeader where
  machineId : Str
  volumeObjectId : Bytes
  unknown32 : Nat
  timestamp40 : Nat
  timestamp48 : Nat
  flags56 : Nat
  state60 : Nat
  indices : List Nat
  deriving DecidableEq, Repr

/-- dfir_ntfs/MoveTable.py:103-120 `get_extended_header`. -/
def extendedHeader (buf : Bytes) : ExtendedHeader :=
  let b := slice buf 40 132                                                                     -- 107
  ⟨Scripts.decodeString ((slice b 0 16).takeWhile (· ≠ 0)),                                     -- 111-115
   slice b 16 32, u64 b 32, u64 b 40, u64 b 48, u32 b 56, u32 b 60,
   [u32 b 64, u32 b 68, u32 b 72, u32 b 76, u32 b 80, u32 b 84, u32 b 88]⟩

/-! ### The footer of a sector -/

/-- dfir_ntfs/MoveTable.py:131-134 `LogSectorFooter.__init__`, 299-302 `LogSector.get_footer`: the last 16 bytes. -/
def footer (sector : Bytes) : Except Exc Bytes :=
  if ¬ (sector.length = 512 ∨ sector.length = 4096) then .error .ValueError
  else .ok (sector.drop (sector.length - 16))
/-- dfir_ntfs/MoveTable.py:136-139 `get_lowest_log_entry_index_present`. -/
def footerLowest (buf : Bytes) : Nat := u32 buf 0
/-- dfir_ntfs/MoveTable.py:141-144 `get_next_log_entry_index`. -/
def footerNext (buf : Bytes) : Nat := u32 buf 4
/-- dfir_ntfs/MoveTable.py:146-149 `get_unused`. -/
def footerUnused (buf : Bytes) : Bytes := buf.drop 8

/-! ### Log entries: 124 bytes -/

/-- dfir_ntfs/MoveTable.py:170-173 `get_next_log_entry_index`. -/
def entryNext (entry : Bytes) : Nat := u32 entry 0
/-- dfir_ntfs/MoveTable.py:175-178 `get_previous_log_entry_index`. -/
def entryPrevious (entry : Bytes) : Nat := u32 entry 4
/-- dfir_ntfs/MoveTable.py:185-188 `get_log_entry_index`. -/
def entryIndex (entry : Bytes) : Nat := u32 entry 12
/-- dfir_ntfs/MoveTable.py:190-193 `get_unknown_16`. -/
def entryUnknown16 (entry : Bytes) : Nat := u32 entry 16
/-- dfir_ntfs/MoveTable.py:224-230 `get_machine_id`. -/
def entryMachineId (entry : Bytes) : Str := Scripts.decodeString (machineIdRaw entry)
/-- dfir_ntfs/MoveTable.py:279-282 `get_unknown_120`. -/
def entryUnknown120 (entry : Bytes) : Nat := u32 entry 120

end Verif.MoveTable
