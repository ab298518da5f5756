/-
Model of the fields of the records of a change journal that the programs do not use: dfir_ntfs/USN.py:169-337.
-/
import Verif.Model.USN
namespace Verif.USN

/-- dfir_ntfs/USN.py:169-172, 283-286 `get_major_version`. -/
def Record.majorVersion (r : Record) : Except Exc Nat := unpackLE 2 (slice r.raw 4 6)
/-- dfir_ntfs/USN.py:174-177, 288-291 `get_minor_version`. -/
def Record.minorVersion (r : Record) : Except Exc Nat := unpackLE 2 (slice r.raw 6 8)
/-- dfir_ntfs/USN.py:222-225 `get_security_id` (versions 2 and 3). -/
def Record.securityId (r : Record) : Except Exc Nat := unpackLE 4 (slice r.raw (48 + r.increment) (52 + r.increment))
/-- dfir_ntfs/USN.py:227-230 `get_file_attributes` (versions 2 and 3). -/
def Record.fileAttributes (r : Record) : Except Exc Nat := unpackLE 4 (slice r.raw (52 + r.increment) (56 + r.increment))
/-- dfir_ntfs/USN.py:324-327 `get_remaining_extents` (version 4). -/
def Record.remainingExtents (r : Record) : Except Exc Nat := unpackLE 4 (slice r.raw 56 60)
/-- dfir_ntfs/USN.py:329-332 `get_number_of_extents` (version 4). -/
def Record.numberOfExtents (r : Record) : Except Exc Nat := unpackLE 2 (slice r.raw 60 62)
/-- dfir_ntfs/USN.py:334-337 `get_extent_size` (version 4). -/
def Record.extentSize (r : Record) : Except Exc Nat := unpackLE 2 (slice r.raw 62 64)

end Verif.USN
