/-
The format of change journal records, and the documented reason and source flags, independently of the
code (used to state C28-C31).
-/
import Verif.Model.USN
namespace Verif.Spec.USN
open Verif.USN (Record)

/-- The bytes of a record: the length field is the length, a multiple of 8, and the record has at least
the fixed fields of its version. -/
structure ValidRecord (rec : Bytes) : Prop where
  length : leNat (slice rec 0 4) = rec.length
  aligned : 8 ∣ rec.length
  version : (leNat (slice rec 4 6) = 2 ∧ 62 ≤ rec.length) ∨ (leNat (slice rec 4 6) = 3 ∧ 62 + 16 ≤ rec.length) ∨
    (leNat (slice rec 4 6) = 4 ∧ 80 ≤ rec.length)

/-- The record object for such bytes. -/
def recordOf (rec : Bytes) : Record :=
  if leNat (slice rec 4 6) = 2 then .v2or3 false rec
  else if leNat (slice rec 4 6) = 3 then .v2or3 true rec
  else .v4 rec

/-- There is a record of `n` bytes at `pos`, not larger than the 8192 bytes the scan looks at. -/
def RecordAt (file : Bytes) (pos n : Nat) : Prop :=
  n ≤ 8192 ∧ pos + n ≤ file.length ∧ ValidRecord (slice file pos (pos + n))

/-- The documented reasons: bit number and name, by bit number. -/
def documentedReasons : List (Nat × String) := [
  (0, "USN_REASON_DATA_OVERWRITE"), (1, "USN_REASON_DATA_EXTEND"), (2, "USN_REASON_DATA_TRUNCATION"),
  (4, "USN_REASON_NAMED_DATA_OVERWRITE"), (5, "USN_REASON_NAMED_DATA_EXTEND"), (6, "USN_REASON_NAMED_DATA_TRUNCATION"),
  (8, "USN_REASON_FILE_CREATE"), (9, "USN_REASON_FILE_DELETE"), (10, "USN_REASON_EA_CHANGE"),
  (11, "USN_REASON_SECURITY_CHANGE"), (12, "USN_REASON_RENAME_OLD_NAME"), (13, "USN_REASON_RENAME_NEW_NAME"),
  (14, "USN_REASON_INDEXABLE_CHANGE"), (15, "USN_REASON_BASIC_INFO_CHANGE"), (16, "USN_REASON_HARD_LINK_CHANGE"),
  (17, "USN_REASON_COMPRESSION_CHANGE"), (18, "USN_REASON_ENCRYPTION_CHANGE"), (19, "USN_REASON_OBJECT_ID_CHANGE"),
  (20, "USN_REASON_REPARSE_POINT_CHANGE"), (21, "USN_REASON_STREAM_CHANGE"), (22, "USN_REASON_TRANSACTED_CHANGE"),
  (23, "USN_REASON_INTEGRITY_CHANGE"), (31, "USN_REASON_CLOSE")]

/-- The documented sources. -/
def documentedSources : List (Nat × String) := [
  (0, "USN_SOURCE_DATA_MANAGEMENT"), (1, "USN_SOURCE_AUXILIARY_DATA"), (2, "USN_SOURCE_REPLICATION_MANAGEMENT"),
  (3, "USN_SOURCE_CLIENT_REPLICATION_MANAGEMENT")]

end Verif.Spec.USN
