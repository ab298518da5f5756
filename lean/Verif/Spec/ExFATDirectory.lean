/-
Specifications for exFAT directories: entries of 32 bytes, the fields at their offsets in the exFAT specification.
-/
import Verif.Spec.FATNames
import Verif.Model.ExFAT.Directory
namespace Verif.Spec.ExFAT
open Verif.ExFAT Verif.Spec.FAT

/-- The type of an entry without its in-use bit. -/
def entryKind (slot : Bytes) : Nat := u8 slot 0 % 128

/-- The in-use bit. -/
def entryInUse (slot : Bytes) : Prop := 128 ≤ u8 slot 0

/-- A secondary entry (bit 6 of the type). -/
def Secondary (slot : Bytes) : Prop := 64 ≤ entryKind slot

instance (slot : Bytes) : Decidable (entryInUse slot) := by unfold entryInUse; infer_instance
instance (slot : Bytes) : Decidable (Secondary slot) := by unfold Secondary; infer_instance

/-- A control character, or one of those that have a meaning in a path or a command. -/
def ForbiddenInName (c : Nat) : Prop := c < 0x20 ∨ c ∈ "\"*/:<>?\\|".toList.map Char.toNat

/-- The units of a name up to the first null one. -/
def BeforeNull (b units : Bytes) : Prop :=
  ∃ rest, b = units ++ rest ∧ units.length % 2 = 0 ∧
    (∀ i, i < units.length / 2 → slice units (2 * i) (2 * i + 2) ≠ [0, 0]) ∧ (rest = [] ∨ slice rest 0 2 = [0, 0])

/-- A text without forbidden characters, that is not the name of the directory itself or of its parent. -/
def GoodText (s : Str) : Prop := (∀ c ∈ s, ¬ ForbiddenInName c) ∧ s ≠ [0x2E] ∧ s ≠ [0x2E, 0x2E]

/-- The checksum of an entry set: 16 bits, rotated to the right before each byte is added; the bytes 2 and 3 of the
first entry, which store it, are left out. -/
def setChecksum (set : Bytes) : Nat := rotateSum 15 (slice set 0 2 ++ slice set 4 set.length)

/-- An entry set: a file entry with its secondary entries; `stream` is its stream extension and `names` are the entries
with the parts of the name. -/
structure EntrySet (primary : Bytes) (secondary : List Bytes) (stream : Bytes) (names : List Bytes) : Prop where
  file : entryKind primary = 5
  count : secondary.length = u8 primary 1
  bounds : 2 ≤ secondary.length ∧ secondary.length ≤ 64
  /-- The checksum of an allocated set is right. -/
  checksum : entryInUse primary → u16 primary 2 = setChecksum (primary ++ secondary.flatten)
  /-- All entries of an allocated set are allocated. -/
  secondaries : ∀ s ∈ secondary, Secondary s ∧ (entryInUse primary → entryInUse s)
  /-- First the stream extension, then the first part of the name, at the end those of vendors. -/
  places : ∃ name body vendor, secondary = stream :: name :: (body ++ vendor) ∧ entryKind stream = 0x40 ∧ entryKind name = 0x41 ∧
    (∀ s ∈ body, entryKind s ∉ [0x40, 0x60, 0x61]) ∧ (∀ s ∈ vendor, entryKind s ∈ [0x60, 0x61]) ∧
    names = name :: body.filter (entryKind · = 0x41)
  /-- The flag that clusters can be allocated. -/
  allocation : u8 stream 1 % 2 = 1
  nameLength : u8 stream 3 ≠ 0
  /-- Not more parts of the name than its length asks for: 15 characters each, 17 parts at most. -/
  nameCount : names.length ≤ 17 ∧ names.length ≤ (u8 stream 3 + 14) / 15

/-- The name of a set: the decoded units.  A text longer than the length in the stream extension is cut (and not
checked), another one is good. -/
def SetName (stream : Bytes) (names : List Bytes) (s : Str) : Prop :=
  ∃ units, BeforeNull (names.map (slice · 2 32)).flatten units ∧ utf16Decode units ≠ [] ∧
    (u8 stream 3 < (utf16Decode units).length → s = (utf16Decode units).take (u8 stream 3)) ∧
    (¬ u8 stream 3 < (utf16Decode units).length → s = utf16Decode units ∧ GoodText s)

/-- A timestamp: a 16-bit date over a 16-bit time, with hundredths of a second (up to 199) added. -/
def Timestamp (value hundredths : Nat) (t : Option Verif.FAT.DateTime) : Prop :=
  ∀ d c μs, t = some ⟨d, c, μs⟩ ↔
    ValidDate d.year d.month d.day ∧ value / 65536 = packDate d.year d.month d.day ∧
    ∃ second, ValidTime c.hour c.minute second ∧ value % 65536 = packTime c.hour c.minute second ∧
      1000000 * c.second + μs = 1000000 * second + 10000 * (if hundredths ≤ 199 then hundredths else 0) ∧ μs < 1000000

/-- The offset from UTC in quarters of an hour: seven bits with a sign, when the top bit is set. -/
def zone (b : Nat) : Option Int :=
  if b < 128 then none else if b < 192 then some ((b : Int) - 128) else some ((b : Int) - 256)

/-- The file has the fields of the set. -/
structure Describes (primary stream : Bytes) (names : List Bytes) (e : FileEntry) : Prop where
  deleted : e.isDeleted = true ↔ ¬ entryInUse primary
  directory : e.isDirectory = true ↔ u16 primary 4 / 16 % 2 = 1
  name : SetName stream names e.name
  created : Timestamp (u32 primary 8) (u8 primary 20) e.ctime
  modified : Timestamp (u32 primary 12) (u8 primary 21) e.mtime
  accessed : Timestamp (u32 primary 16) 0 e.atime
  createdZone : e.ctz = zone (u8 primary 22)
  modifiedZone : e.mtz = zone (u8 primary 23)
  accessedZone : e.atz = zone (u8 primary 24)
  size : e.size = u64 stream 24
  validSize : e.validDataLength = u64 stream 8
  attributes : e.attributes = u16 primary 4
  firstCluster : e.firstCluster = u32 stream 20
  encrypted : e.isEncrypted = true ↔ u16 primary 6 / 32768 = 1
  contiguous : e.noFatChain = true ↔ u8 stream 1 / 2 % 2 = 1

/-- At `primary`, followed by the entries `l`, there is the file `e`, and then come the entries `rest`. -/
def FileAt (primary : Bytes) (l : List Bytes) (e : FileEntry) (rest : List Bytes) : Prop :=
  ∃ secondary stream names, l = secondary ++ rest ∧ EntrySet primary secondary stream names ∧ Describes primary stream names e

/-- The end of a directory; a directory other than the root also ends at an invalid entry and at an allocated entry
for the bitmap, the upcase table or the label. -/
def EndsAt (isRoot : Bool) (slot : Bytes) : Prop :=
  u8 slot 0 = 0 ∨ (isRoot = false ∧ u8 slot 0 ∈ [0x80, 0x81, 0x82, 0x83])

/-- The label of the volume, of 1 to 15 units. -/
def Label (slot : Bytes) (s : Str) : Prop :=
  1 ≤ u8 slot 1 ∧ u8 slot 1 ≤ 15 ∧
  ∃ units, BeforeNull (slice slot 2 (2 + 2 * u8 slot 1)) units ∧ s = utf16Decode units ∧ s ≠ [] ∧ ∀ c ∈ s, ¬ ForbiddenInName c

/-- The listing of a root directory fails here, after so many labels and bitmaps: at an invalid entry, at a second label or a
bad one, at a third bitmap. -/
def FailsAt (labels bitmaps : Nat) (slot : Bytes) : Prop :=
  u8 slot 0 = 0x80 ∨
  (u8 slot 0 = 0x83 ∧ (labels ≠ 0 ∨ (u8 slot 1 ≠ 0 ∧ ¬ ∃ s, Label slot s))) ∨
  (u8 slot 0 = 0x81 ∧ 2 ≤ bitmaps)

/-- The results for the entries of a directory other than names without a set, and whether the listing fails. -/
inductive Listing (isRoot : Bool) : (labels bitmaps : Nat) → List Bytes → List Item → Bool → Prop where
  | nil {labels bitmaps} : Listing isRoot labels bitmaps [] [] false
  | ends {labels bitmaps slot l} : EndsAt isRoot slot → Listing isRoot labels bitmaps (slot :: l) [] false
  | fails {labels bitmaps slot l} : isRoot = true → FailsAt labels bitmaps slot → Listing isRoot labels bitmaps (slot :: l) [] true
  | file {labels bitmaps slot l e rest items failed} : FileAt slot l e rest → Listing isRoot labels bitmaps rest items failed →
      Listing isRoot labels bitmaps (slot :: l) (.file e :: items) failed
  | label {bitmaps slot l s items failed} : isRoot = true → u8 slot 0 = 0x83 → Label slot s → Listing isRoot 1 bitmaps l items failed →
      Listing isRoot 0 bitmaps (slot :: l) (.label s :: items) failed
  | noLabel {bitmaps slot l items failed} : isRoot = true → u8 slot 0 = 0x83 → u8 slot 1 = 0 → Listing isRoot 1 bitmaps l items failed →
      Listing isRoot 0 bitmaps (slot :: l) items failed
  | bitmap {labels bitmaps slot l items failed} : isRoot = true → u8 slot 0 = 0x81 → bitmaps < 2 → Listing isRoot labels (bitmaps + 1) l items failed →
      Listing isRoot labels bitmaps (slot :: l) (.bitmap (u8 slot 1 % 2) (u32 slot 20) (u64 slot 24) :: items) failed
  /-- Every other entry is skipped. -/
  | skip {labels bitmaps slot l items failed} : ¬ EndsAt isRoot slot → ¬ (isRoot = true ∧ u8 slot 0 ∈ [0x80, 0x81, 0x83]) →
      (¬ ∃ e rest, FileAt slot l e rest) → Listing isRoot labels bitmaps l items failed →
      Listing isRoot labels bitmaps (slot :: l) items failed

/-- The results that are not names without a set. -/
def notOrphans (items : List Item) : List Item := items.filter fun | .orphan _ => false | _ => true

end Verif.Spec.ExFAT
