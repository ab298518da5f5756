/-
Small log files for the examples.
-/
import Verif.Model.LogFile.Lsns
namespace Verif.SampleLog

/-- A protected sector: the data, zeros, and the sequence number 1. -/
def sector (b : Bytes) : Bytes := b ++ (zeros (510 - b.length) ++ [1, 0])
/-- A protected page whose data is in its first sector. -/
def page (b : Bytes) : Bytes := sector b ++ (List.replicate 7 (sector [])).flatten

/-- A restart page of a log file with the version 1.1: a client whose last LSN is `lsn`, with `bits` bits
for sequence numbers, headers of 48 bytes and pages whose data starts at 64. -/
def restart (bits lsn : Nat) : Bytes :=
  page ([[0x52, 0x53, 0x54, 0x52], natLE 2 30, natLE 2 9, zeros 8, natLE 4 4096, natLE 4 4096, natLE 2 48, natLE 2 1, natLE 2 1,
    [1, 0], zeros 16, natLE 8 lsn, natLE 2 1, [0xFF, 0xFF], natLE 2 0, zeros 2, natLE 4 bits, natLE 2 0, natLE 2 64, zeros 12,
    natLE 2 48, natLE 2 64, zeros 24, natLE 8 lsn, natLE 8 lsn, zeros 12, natLE 4 8, [0x4E, 0, 0x54, 0, 0x46, 0, 0x53, 0]].flatten)

/-- The header of a log record page: the last LSN (or the file offset of a copy), and the last end LSN. -/
def header (lsn endLsn : Nat) : Bytes :=
  [[0x52, 0x43, 0x52, 0x44], natLE 2 40, natLE 2 9, natLE 8 lsn, zeros 16, natLE 8 endLsn, [1, 0], zeros 16, zeros 6].flatten

/-- A log record. -/
def record (lsn previous undo length id type : Nat) (data : Bytes) : Bytes :=
  [natLE 8 lsn, natLE 8 previous, natLE 8 undo, natLE 4 length, natLE 4 id, natLE 4 type, natLE 4 0, zeros 8, data].flatten

/-- An NTFS restart area with the version 1 and an LSN of the open attribute table. -/
def area (oatLsn : Nat) : Bytes := [natLE 4 1, zeros 12, natLE 8 oatLsn, zeros 40].flatten

/-- A log file of three pages with 40 bits for sequence numbers: a restart page, a damaged one, and a log
page with three records of the lap 1.  The restart page and the log page name only the first record,
which is a restart area; the second and the third follow. -/
def log : Bytes := [restart 40 16778248, zeros 4096,
  page ([header 16778248 16778248, record 16778248 0 0 64 0 2 (area 16778272),
    record 16778262 16778248 0 32 0 1 ([7, 0, 7, 0] ++ zeros 28), record 16778272 16778262 16778262 32 0 1 ([0x1D, 0, 0, 0] ++ zeros 28)].flatten)].flatten

/-- A log file with 54 bits for sequence numbers, so that an LSN can only address two pages: the record in
the page 1 has 8024 bytes of data, and the next one is at the offset 72 of the page 3. -/
def tooLarge : Bytes := [restart 54 1544,
  page ([header 1544 1544, record 1544 0 0 8024 0 1 (zeros 100)].flatten), zeros 4096,
  page ([header 0 0, zeros 8, record 1545 0 0 32 0 1 (zeros 32)].flatten)].flatten

end Verif.SampleLog
