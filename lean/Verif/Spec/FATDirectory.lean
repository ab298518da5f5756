/-
Specifications for FAT directories: slots of 32 bytes, the fields at their offsets in the FAT specification.
-/
import Verif.Spec.FATNames
import Verif.Model.FAT.Directory
namespace Verif.Spec.FAT
open Verif.FAT

/-- A slot with a part of a long name: the attribute byte, without its two reserved bits, is 0x0F. -/
def isLongSlot (slot : Bytes) : Prop := u8 slot 11 % 64 = 15

/-- The two bits of the attributes that say what a slot is: 0 is a file, 1 is a volume label and 2 is a
directory. -/
def kind (slot : Bytes) : Nat := u8 slot 11 / 8 % 4

/-- The 11 bytes of the name. -/
def rawName (slot : Bytes) : Bytes := slice slot 0 11

/-- The name can be reported: an 8.3 name, or a label without a null and without line breaks (the first byte
can be changed first, see `shown`). -/
def GoodName (slot : Bytes) : Prop :=
  if kind slot = 1 then ∀ c ∈ shown (rawName slot), c ≠ 0 ∧ c ≠ 10 ∧ c ≠ 13
  else Valid83 (rawName slot)

/-- The slots that are reported as files: not a part of a long name, not of the impossible kind 3, with a
name, and not wiped. -/
def Listed (slot : Bytes) : Prop :=
  ¬ isLongSlot slot ∧ kind slot ≠ 3 ∧ GoodName slot ∧ (∃ c ∈ slot, c ≠ 0xE5) ∧ (∃ c ∈ slot, c ≠ 0)

/-- The text of an 8.3 name; two bits of the slot ask for lowercase. -/
def NameText (codec : Codec) (name : Bytes) (lowerBase lowerExtension : Prop) (s : Str) : Prop :=
  ∃ base extension, IsTrimmed ((shown name).take 8) base ∧ IsTrimmed ((shown name).drop 8) extension ∧
    ∃ baseText extensionText,
      (lowerBase → baseText = codec.lower (codec.decode base)) ∧ (¬ lowerBase → baseText = codec.decode base) ∧
      (lowerExtension → extensionText = codec.lower (codec.decode extension)) ∧ (¬ lowerExtension → extensionText = codec.decode extension) ∧
      (extensionText = [] → s = baseText) ∧ (extensionText ≠ [] → s = baseText ++ [0x2E] ++ extensionText)

/-- The bytes of an 8.3 name: the base, and after a dot the extension, if there is one. -/
def NameBytes (name s : Bytes) : Prop :=
  ∃ base extension, IsTrimmed ((shown name).take 8) base ∧ IsTrimmed ((shown name).drop 8) extension ∧
    (extension = [] → s = base) ∧ (extension ≠ [] → s = base ++ [0x2E] ++ extension)

/-- The file `e` has the fields of the slot (its long name is not a part of the slot).  `afterNull`: there is a
slot with the first byte zero before this one. -/
structure Describes (codec : Codec) (isFat32 : Bool) (slot : Bytes) (afterNull : Prop) (e : FileEntry) : Prop where
  deleted : e.isDeleted = some true ↔ u8 slot 0 = 0 ∨ u8 slot 0 = 0xE5
  unknown : e.isDeleted = none ↔ ¬ (u8 slot 0 = 0 ∨ u8 slot 0 = 0xE5) ∧ afterNull
  allocated : e.isDeleted = some false ↔ ¬ (u8 slot 0 = 0 ∨ u8 slot 0 = 0xE5) ∧ ¬ afterNull
  directory : e.isDirectory = true ↔ kind slot = 2
  name : kind slot ≠ 1 → NameText codec (rawName slot) (u8 slot 12 / 8 % 2 = 1) (u8 slot 12 / 16 % 2 = 1) e.shortName
  label : kind slot = 1 → ∃ text, IsTrimmed (shown (rawName slot)) text ∧ e.shortName = codec.decode text
  nameBytes : kind slot ≠ 1 → NameBytes (rawName slot) e.shortNameRaw
  labelBytes : kind slot = 1 → IsTrimmed (shown (rawName slot)) e.shortNameRaw
  size : e.size = u32 slot 28
  attributes : e.attributes = u8 slot 11 % 64
  firstCluster : e.firstCluster = (if isFat32 then u16 slot 20 * 65536 else 0) + u16 slot 26
  encrypted : e.isEncrypted = true ↔ u8 slot 12 % 2 = 1
  accessed : ∀ d, e.atime = some d ↔ ValidDate d.year d.month d.day ∧ u16 slot 18 = packDate d.year d.month d.day
  modified : ∀ d t μs, e.mtime = some ⟨d, t, μs⟩ ↔
    ValidDate d.year d.month d.day ∧ u16 slot 24 = packDate d.year d.month d.day ∧
    ValidTime t.hour t.minute t.second ∧ u16 slot 22 = packTime t.hour t.minute t.second ∧ μs = 0
  created : ∀ d t μs, e.ctime = some ⟨d, t, μs⟩ ↔
    ValidDate d.year d.month d.day ∧ u16 slot 16 = packDate d.year d.month d.day ∧
    ∃ second, ValidTime t.hour t.minute second ∧ u16 slot 14 = packTime t.hour t.minute second ∧
      1000000 * t.second + μs = 1000000 * second + 10000 * (if u8 slot 13 ≤ 199 then u8 slot 13 else 0) ∧ μs < 1000000

/-- The files of a directory: the slots that are listed, in their order, one file for each. -/
inductive FilesOf (codec : Codec) (isFat32 : Bool) : Prop → List Bytes → List FileEntry → Prop where
  | nil (afterNull) : FilesOf codec isFat32 afterNull [] []
  | skip {afterNull slot slots files} : ¬ Listed slot → FilesOf codec isFat32 (afterNull ∨ u8 slot 0 = 0) slots files →
      FilesOf codec isFat32 afterNull (slot :: slots) files
  | list {afterNull slot slots e files} : Listed slot → Describes codec isFat32 slot afterNull e →
      FilesOf codec isFat32 (afterNull ∨ u8 slot 0 = 0) slots files →
      FilesOf codec isFat32 afterNull (slot :: slots) (e :: files)

/-- The files among the results of a listing. -/
def filesIn (items : List Item) : List FileEntry :=
  items.filterMap fun | .file e => some e | .orphan _ => none

/-! ### Long names -/

/-- A complete set of slots for a long name: the first one has the number of slots (at most 20) plus 0x40,
the others count down to 1, and all have the checksum. -/
def IsRun (checksum : Nat) : List Bytes → Prop
  | [] => False
  | first :: rest =>
    rest.length < 20 ∧ u8 first 0 = 0x40 + (rest.length + 1) ∧
    rest.map (u8 · 0) = (List.range rest.length).reverse.map (· + 1) ∧
    ∀ s ∈ first :: rest, u8 s 13 = checksum

/-- The 13 units of a name in a slot. -/
def unitsOf (slot : Bytes) : Bytes := slice slot 1 11 ++ slice slot 14 26 ++ slice slot 28 32

/-- The units of a set, from the last slot to the first one. -/
def runBytes (run : List Bytes) : Bytes := (run.reverse.map unitsOf).flatten

/-- The text of a set: the units before the first null one, decoded; not empty and at most 255 characters. -/
def RunText (run : List Bytes) (s : Str) : Prop :=
  ∃ units rest, runBytes run = units ++ rest ∧ units.length % 2 = 0 ∧
    (∀ i, i < units.length / 2 → slice units (2 * i) (2 * i + 2) ≠ [0, 0]) ∧ (rest = [] ∨ slice rest 0 2 = [0, 0]) ∧
    utf16Decode units ≠ [] ∧ s = (utf16Decode units).take 255

/-- The slots `before` end with a set for the checksum.  Slots of long names with a type that is not zero are
of no account. -/
def EndsWithRun (checksum : Nat) (before run : List Bytes) : Prop :=
  ∃ pre tail, before = pre ++ tail ∧ (∀ s ∈ tail, isLongSlot s) ∧ run = tail.filter (fun s => u8 s 12 = 0) ∧ IsRun checksum run

/-- UTF-16 units as bytes. -/
def unitBytes (units : List Nat) : Bytes := (units.map (natLE 2)).flatten

/-- Units with the null one and the filling after it, up to a multiple of 13. -/
def filled (units : List Nat) : List Nat :=
  if units.length % 13 = 0 then units else units ++ 0 :: List.replicate (12 - units.length % 13) 0xFFFF

/-- One slot of a long name. -/
def writeLong (checksum order : Nat) (units : List Nat) : Bytes :=
  natLE 1 order ++ unitBytes (units.take 5) ++ [0x0F, 0] ++ natLE 1 checksum ++ unitBytes ((units.drop 5).take 6) ++ [0, 0] ++
    unitBytes ((units.drop 11).take 2)

/-- The slots of a long name: the part with number `i` has the units from `13 * (i - 1)`; the last part comes
first and is marked with 0x40. -/
def writeRun (checksum : Nat) (units : List Nat) : List Bytes :=
  let n := (filled units).length / 13
  (List.range n).reverse.map fun i =>
    writeLong checksum (if i + 1 = n then 0x40 + (i + 1) else i + 1) (((filled units).drop (13 * i)).take 13)

/-- A code point as UTF-16 units. -/
def encodePoint (c : Nat) : List Nat :=
  if c < 0x10000 then [c] else [0xD800 + (c - 0x10000) / 0x400, 0xDC00 + (c - 0x10000) % 0x400]

/-- The UTF-16 units of a text. -/
def encode (s : Str) : List Nat := s.flatMap encodePoint

/-- A character that a name can have: any code point but null and the surrogates. -/
def IsCharacter (c : Nat) : Prop := c ≠ 0 ∧ (c < 0xD800 ∨ 0xE000 ≤ c) ∧ c < 0x110000

end Verif.Spec.FAT
