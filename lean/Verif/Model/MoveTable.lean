/-
Model of dfir_ntfs/MoveTable.py (tracking.log).  `DecodeString` and `uuid.UUID` are in
Verif/Model/Scripts/Move.lean.  Not modelled: the unknown fields, `__str__`.
-/
import Verif.Model.Attributes
namespace Verif.MoveTable

/-- dfir_ntfs/MoveTable.py:12 `MOVETABLE_HEADER_SIGNATURE`. -/
def headerSignature : Bytes := [0xEC, 0xA7, 0x43, 0x66, 0xFE, 0xEF, 0xD1, 0x11, 0xB2, 0xAE, 0x00, 0xC0, 0x4F, 0xB9, 0x38, 0x6D]

/-- dfir_ntfs/MoveTable.py:63-70 `Header.__init__` (with `ValidateSectorSize`, 22-28). -/
def header (sector : Bytes) : Except Exc Bytes :=
  if ¬ (sector.length = 512 ∨ sector.length = 4096) then .error .ValueError      -- 64 (25)
  else if slice sector 0 16 ≠ headerSignature then .error .ValueError            -- 69
  else .ok sector

/-- dfir_ntfs/MoveTable.py:180-183 `LogEntry.get_log_entry_type`. -/
def entryType (entry : Bytes) : Except Exc Nat := unpackLE 4 (slice entry 8 12)

/-- dfir_ntfs/MoveTable.py:160-168 `LogEntry.__init__`. -/
def logEntry (raw : Bytes) : Except Exc Bytes :=
  if raw.length ≠ 124 then .error .ValueError                                    -- 161
  else
    match entryType raw with                                                     -- 166
    | .error e => .error e
    | .ok t => if ¬ (t = 1 ∨ t = 2) then .error .NotImplementedError else .ok raw  -- 167

/-- dfir_ntfs/MoveTable.py:212-222 `LogEntry.get_machine_id_raw`. -/
def machineIdRaw (entry : Bytes) : Bytes := (slice entry 68 84).takeWhile (· ≠ 0)

/-- dfir_ntfs/MoveTable.py:243-255 `LogEntry.get_timestamp`. -/
def timestamp (entry : Bytes) : Except Exc (Option Nat × Option Nat) :=
  match unpackLE 4 (slice entry 116 120) with                                    -- 248
  | .error e => .error e
  | .ok t => .ok (Attributes.decodeFiletime (t <<< 32), Attributes.decodeFiletime (t <<< 32 ||| 0xFFFFFFFF))  -- 249-253

/-- dfir_ntfs/MoveTable.py:304-315, the loop of `LogSector.log_entries`.  An exception of `LogEntry`
ends the generator. -/
def sectorEntriesLoop (buf : Bytes) (pos : Nat) : Gen Bytes :=
  if pos + 124 ≤ buf.length - 16 then                                            -- 308
    let raw := slice buf pos (pos + 124)                                         -- 309
    if raw.length ≠ 124 then .done                                               -- 310
    else
      match logEntry raw with                                                    -- 313
      | .error e => .fail e
      | .ok entry => .cons entry (sectorEntriesLoop buf (pos + 124))             -- 315
  else .done
termination_by buf.length - pos
decreasing_by omega

/-- dfir_ntfs/MoveTable.py:304-315 `LogSector.log_entries`. -/
def sectorEntries (buf : Bytes) : Gen Bytes := sectorEntriesLoop buf 0

/-- dfir_ntfs/MoveTable.py:329-340 `MoveTableParser.__init__`: the sector size. -/
def sectorSize (file : Bytes) (given : Option Nat) : Nat :=
  match given with
  | some s => s
  | none => if slice file 512 528 = zeros 16 then 4096 else 512                  -- 334-340

/-- dfir_ntfs/MoveTable.py:342-348 `get_header`. -/
def getHeader (file : Bytes) (size : Nat) : Except Exc Bytes := header (slice file 0 size)

/-- dfir_ntfs/MoveTable.py:350-363, the loop of `log_sectors`: it ends at the first sector that is not
512 or 4096 bytes long (`LogSector.__init__` raises ValueError, 294-297).  Simplification: `seek` with
an offset of 2^63 or more (OverflowError) is not modelled; no file is that large. -/
def logSectorsLoop (file : Bytes) (size : Nat) (i : Nat) : List Bytes :=
  let raw := slice file (i * size) (i * size + size)                             -- 355-356
  if ¬ (raw.length = 512 ∨ raw.length = 4096) then []                            -- 358-361
  else raw :: logSectorsLoop file size (i + 1)                                   -- 363
termination_by file.length - i * size
decreasing_by
  have h : (slice file (i * size) (i * size + size)).length = 512 ∨ (slice file (i * size) (i * size + size)).length = 4096 :=
    Decidable.of_not_not (by assumption)
  rw [slice_length] at h
  rw [Nat.add_mul]
  omega

/-- dfir_ntfs/MoveTable.py:350-363 `log_sectors`. -/
def logSectors (file : Bytes) (size : Nat) : List Bytes := logSectorsLoop file size 1

/-- dfir_ntfs/MoveTable.py:369-373: the entries of a sector that are in use. -/
def usedEntries (g : Gen Bytes) : Gen Bytes := ⟨g.items.filter fun e => entryType e ≠ .ok 1, g.err⟩

/-- dfir_ntfs/MoveTable.py:365-373 `log_entries`. -/
def logEntries (file : Bytes) (size : Nat) : Gen Bytes :=
  (logSectors file size).foldr (fun s g => (usedEntries (sectorEntries s)).append g) .done

end Verif.MoveTable
