/-
Independent description of the on-disk format of file record segments (used to state C05-C10): how
NTFS protects a multi-sector record, which headers are valid, and what a stored attribute record
looks like.  Only byte-level primitives (`slice`, `leNat`), the result type `AttributeRecord` and
the mapping pairs decoder (which C02 and C03 characterise) are shared with the model.
-/
import Verif.Model.MFT.FileRecordSegment
namespace Verif.Spec.FRS
open Verif.MFT (AttributeRecord)

/-- What NTFS writes to the disk for the record contents `orig` whose update sequence array starts
at `off`, when the update sequence number is `x, y` (low byte, high byte): the array holds the
number followed by the last two bytes of every sector, and the last two bytes of every sector are
replaced by the number. -/
def protect (orig : Bytes) (off : Nat) (x y : UInt8) : Bytes :=
  (List.range orig.length).map fun p =>
    if p = off then x
    else if p = off + 1 then y
    else if off + 2 ≤ p ∧ p < off + 2 + 2 * (orig.length / 512) then
      orig.getD (512 * ((p - off - 2) / 2) + 510 + (p - off) % 2) 0
    else if p % 512 = 510 then x
    else if p % 512 = 511 then y
    else orig.getD p 0

/-- Header fields, by their on-disk place. -/
def usaOffset (b : Bytes) : Nat := leNat (slice b 4 6)
def usaCount (b : Bytes) : Nat := leNat (slice b 6 8)
def firstAttribute (b : Bytes) : Nat := leNat (slice b 20 22)
def usedSize (b : Bytes) : Nat := leNat (slice b 24 28)
def declaredSize (b : Bytes) : Nat := leNat (slice b 28 32)

/-- "A sane header". -/
structure SaneHeader (b : Bytes) : Prop where
  bufferSize : b.length = 1024 ∨ b.length = 4096
  signature : slice b 0 4 = "FILE".toUTF8.toList ∨ slice b 0 4 = "BAAD".toUTF8.toList ∨
    slice b 0 4 = "CHKD".toUTF8.toList
  usaPlace : 42 ≤ usaOffset b ∧ usaOffset b ≤ 506
  usaCount : usaCount b = b.length / 512 + 1
  size : declaredSize b = 1024 ∨ declaredSize b = 4096
  sizeFits : declaredSize b ≤ b.length
  used : 42 ≤ usedSize b ∧ usedSize b ≤ declaredSize b
  attrAligned : 8 ∣ firstAttribute b
  attrAfterUsa : usaOffset b + 2 * FRS.usaCount b ≤ firstAttribute b
  attrRoom : firstAttribute b + 24 ≤ declaredSize b

/-- Sector number `k` (counted from zero) of the on-disk record is torn: its last two bytes are not
the update sequence number. -/
def Torn (b : Bytes) (k : Nat) : Prop :=
  slice b (512 * k + 510) (512 * k + 512) ≠ slice b (usaOffset b) (usaOffset b + 2)

/-- The name of a stored attribute record `rec` is `name`; `hdr` is the size of the header. -/
def NameStored (rec : Bytes) (hdr : Nat) : Option Bytes → Prop
  | none => leNat (slice rec 9 10) = 0
  | some name => 0 < leNat (slice rec 9 10) ∧ name.length = 2 * leNat (slice rec 9 10) ∧
      2 ∣ leNat (slice rec 10 12) ∧ hdr ≤ leNat (slice rec 10 12) ∧
      name = slice rec (leNat (slice rec 10 12)) (leNat (slice rec 10 12) + name.length)

/-- Where the header and the name end. -/
def headEnd (rec : Bytes) (hdr : Nat) : Nat :=
  if leNat (slice rec 9 10) = 0 then hdr else leNat (slice rec 10 12) + 2 * leNat (slice rec 9 10)

/-- The bytes `rec` are a well-formed attribute record with the contents `a`. -/
def StoredAttribute (rec : Bytes) : AttributeRecord → Prop
  | .resident typeCode name value =>
    8 ∣ rec.length ∧ leNat (slice rec 4 8) = rec.length ∧ leNat (slice rec 0 4) = typeCode ∧
    leNat (slice rec 8 9) = 0 ∧ NameStored rec 24 name ∧
    8 ∣ leNat (slice rec 20 22) ∧ headEnd rec 24 ≤ leNat (slice rec 20 22) ∧ 24 ≤ leNat (slice rec 20 22) ∧
    leNat (slice rec 20 22) + leNat (slice rec 16 20) ≤ rec.length ∧
    value = slice rec (leNat (slice rec 20 22)) (leNat (slice rec 20 22) + leNat (slice rec 16 20))
  | .nonresident typeCode name pairs lowest highest fileSize runs =>
    8 ∣ rec.length ∧ leNat (slice rec 4 8) = rec.length ∧ leNat (slice rec 0 4) = typeCode ∧
    leNat (slice rec 8 9) = 1 ∧ NameStored rec 64 name ∧
    leNat (slice rec 16 24) = lowest ∧ leNat (slice rec 24 32) = highest ∧ lowest ≤ highest ∧
    headEnd rec 64 ≤ leNat (slice rec 32 34) ∧ 64 ≤ leNat (slice rec 32 34) ∧ leNat (slice rec 32 34) < rec.length ∧
    pairs = slice rec (leNat (slice rec 32 34)) rec.length ∧
    leInt (slice rec 48 56) = fileSize ∧
    0 ≤ leInt (slice rec 56 64) ∧ leInt (slice rec 56 64) ≤ fileSize ∧ fileSize ≤ leInt (slice rec 40 48) ∧
    MFT.decodeMappingPairs pairs = .ok runs

end Verif.Spec.FRS
