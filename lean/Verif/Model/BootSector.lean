/-
Model of dfir_ntfs/BootSector.py: the NTFS boot sector.
-/
import Verif.Basic.Exc
namespace Verif.BootSector

/-- dfir_ntfs/BootSector.py:23-30: the constructor, with 32-35 `get_signature`.  The object is its buffer. -/
def init (buf : Bytes) : Except Exc Bytes :=
  if buf.length < 512 ∨ buf.length % 512 ≠ 0 then .error .BootSectorException
  else if slice buf 3 11 ≠ [0x4E, 0x54, 0x46, 0x53, 0x20, 0x20, 0x20, 0x20] then .error .BootSectorException
  else .ok buf

/-- dfir_ntfs/BootSector.py:37-49 `get_bytes_per_sector`. -/
def bytesPerSector (b : Bytes) : Except Exc Nat :=
  if u8 b 11 ≠ 0 then .error .BootSectorException
  else
    let real := u8 b 12 * 256
    if real < 512 ∨ real % 512 ≠ 0 then .error .BootSectorException else .ok real

/-- dfir_ntfs/BootSector.py:51-64 `get_sectors_per_cluster`. -/
def sectorsPerCluster (b : Bytes) : Except Exc Nat :=
  let base := u8 b 13
  if base = 0 then .error .BootSectorException
  else if base ≤ 0x80 then .ok base
  else .ok (1 <<< (leInt (slice b 13 14)).natAbs)

/-- dfir_ntfs/BootSector.py:66-73, 75-82, 84-91: `get_total_number_of_sectors` (40),
`get_first_mft_cluster` (48), `get_first_mftmirr_cluster` (56). -/
def nonzero64 (b : Bytes) (off : Nat) : Except Exc Nat :=
  if u64 b off = 0 then .error .BootSectorException else .ok (u64 b off)
/-- dfir_ntfs/BootSector.py:66-73 `get_total_number_of_sectors`. -/
def totalNumberOfSectors (b : Bytes) : Except Exc Nat := nonzero64 b 40
/-- dfir_ntfs/BootSector.py:75-82 `get_first_mft_cluster`. -/
def firstMftCluster (b : Bytes) : Except Exc Nat := nonzero64 b 48
/-- dfir_ntfs/BootSector.py:84-91 `get_first_mftmirr_cluster`. -/
def firstMftMirrCluster (b : Bytes) : Except Exc Nat := nonzero64 b 56

/-- dfir_ntfs/BootSector.py:93-105 and 107-119: `get_file_record_segment_size` (byte 64) and
`get_index_record_size` (byte 68), which are the same computation. -/
def signedSize (b : Bytes) (off : Nat) : Except Exc Nat := do
  let base := leInt (slice b off (off + 1))
  let real ←
    if base ≥ 0 then do
      let spc ← sectorsPerCluster b
      let bps ← bytesPerSector b
      pure (base.toNat * spc * bps)
    else pure (1 <<< base.natAbs)
  if real = 0 then .error .BootSectorException else .ok real
/-- dfir_ntfs/BootSector.py:93-105 `get_file_record_segment_size`. -/
def fileRecordSegmentSize (b : Bytes) : Except Exc Nat := signedSize b 64
/-- dfir_ntfs/BootSector.py:107-119 `get_index_record_size`. -/
def indexRecordSize (b : Bytes) : Except Exc Nat := signedSize b 68

/-- dfir_ntfs/BootSector.py:121-124 `get_serial_number`. -/
def serialNumber (b : Bytes) : Nat := u64 b 72

/-- dfir_ntfs/BootSector.py:126-129 `is_boot_code_present`. -/
def isBootCodePresent (b : Bytes) : Bool := u16 b 0 ≠ 0 ∧ u16 b 510 = 0xAA55

end Verif.BootSector
