/-
On-disk formats of `$ATTRIBUTE_LIST`, index nodes and `$EA`, and the documented file attribute flags,
independently of the code (used to state C22-C27).
-/
import Verif.Model.Attributes
namespace Verif.Spec.Attr
open Verif.Attributes (AttributeListEntry ExtendedAttribute)

/-! ### `$ATTRIBUTE_LIST` -/

/-- The name of a list entry stored in `rec`: its length in characters is at 6, its place at 7. -/
def ListName (rec : Bytes) : Option Str → Prop
  | none => leNat (slice rec 6 7) = 0
  | some s => 0 < leNat (slice rec 6 7) ∧
      s = utf16Decode (slice rec (leNat (slice rec 7 8)) (leNat (slice rec 7 8) + 2 * leNat (slice rec 6 7)))

/-- The first 26 bytes of `rec` (and the name they point to) hold the fields of `e`. -/
structure ListFields (rec : Bytes) (e : AttributeListEntry) : Prop where
  header : 26 ≤ rec.length
  typeCode : leNat (slice rec 0 4) = e.typeCode
  lowestVcn : leNat (slice rec 8 16) = e.lowestVcn
  reference : leNat (slice rec 16 24) = e.segmentReference
  instanceNumber : leNat (slice rec 24 26) = e.instanceNumber
  name : ListName rec e.name

/-- The record length of a stored list entry; the name lies inside of it. -/
def listLength (rec : Bytes) : Nat := leNat (slice rec 4 6)
structure ListLength (rec : Bytes) : Prop where
  atLeast : 26 ≤ listLength rec
  nameInside : leNat (slice rec 6 7) = 0 ∨ leNat (slice rec 7 8) + 2 * leNat (slice rec 6 7) ≤ listLength rec

/-- The bytes `rec` are a stored list entry, padded to a multiple of 8. -/
structure StoredListEntry (rec : Bytes) (e : AttributeListEntry) : Prop where
  fields : ListFields rec e
  length : ListLength rec
  padded : 8 ∣ rec.length ∧ listLength rec ≤ rec.length ∧ rec.length < listLength rec + 8

/-! ### Index nodes -/

/-- The bytes `rec` are a stored index entry that is not the end entry: its length is at 8, the
(non-zero) length of its key at 10, and the "end" bit of its flags (at 12) is clear. -/
structure StoredIndexEntry (rec : Bytes) : Prop where
  length : leNat (slice rec 8 10) = rec.length
  atLeast : 16 ≤ rec.length
  aligned : 8 ∣ rec.length
  key : 0 < leNat (slice rec 10 12)
  notEnd : (leNat (slice rec 12 14)).testBit 1 = false

/-- What follows the last entry: an end entry (which has no key). -/
structure EndEntry (rest : Bytes) : Prop where
  header : 16 ≤ rest.length
  noKey : leNat (slice rest 10 12) = 0

/-! ### `$EA` -/

/-- A stored extended attribute without padding: offset of the next one, flags, lengths, name with
its null character, value. -/
def eaRecord (next : Nat) (t : ExtendedAttribute) : Bytes :=
  natLE 4 next ++ natLE 1 t.flags ++ natLE 1 (t.name.length - 1) ++ natLE 2 t.value.length ++ t.name ++ t.value

/-- The sizes of the fields allow the attribute to be stored, and its name ends with a null. -/
structure Storable (t : ExtendedAttribute) : Prop where
  flags : t.flags < 256
  name : t.name.getLast? = some 0 ∧ t.name.length ≤ 256
  value : t.value.length < 65536

/-- `b` stores the attributes `l`, with any padding.  The last one either has no next offset, or a
next offset behind which at most 8 bytes are left. -/
inductive EaStored : List ExtendedAttribute → Bytes → Prop
  | last {t : ExtendedAttribute} {rest : Bytes} (h : Storable t) : EaStored [t] (eaRecord 0 t ++ rest)
  | lastWithOffset {t : ExtendedAttribute} {pad rest : Bytes} (h : Storable t) (hr : rest.length ≤ 8)
      (hn : (eaRecord 0 t ++ pad).length < 2 ^ 32) : EaStored [t] (eaRecord (eaRecord 0 t ++ pad).length t ++ pad ++ rest)
  | cons {t : ExtendedAttribute} {l : List ExtendedAttribute} {pad rest : Bytes} (h : Storable t)
      (hn : (eaRecord 0 t ++ pad).length < 2 ^ 32) (hr : EaStored l rest) :
      EaStored (t :: l) (eaRecord (eaRecord 0 t ++ pad).length t ++ pad ++ rest)

/-! ### File attribute flags -/

/-- The documented file attributes: bit number and name, by bit number. -/
def documentedAttributes : List (Nat × String) := [
  (0, "READ_ONLY"), (1, "HIDDEN"), (2, "SYSTEM"), (4, "DIRECTORY"), (5, "ARCHIVE"), (6, "DEVICE"), (7, "NORMAL"),
  (8, "TEMPORARY"), (9, "SPARSE"), (10, "REPARSE_POINT"), (11, "COMPRESSED"), (12, "OFFLINE"),
  (13, "NOT_CONTENT_INDEXED"), (14, "ENCRYPTED"), (15, "INTEGRITY_STREAM"), (16, "VIRTUAL"), (17, "NO_SCRUB_DATA"),
  (18, "RECALL_ON_OPEN"), (19, "PINNED"), (20, "UNPINNED"), (22, "RECALL_ON_DATA_ACCESS")]

end Verif.Spec.Attr
