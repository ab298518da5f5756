/-
Specification of the tables of files of FAT and exFAT volumes, independent of how the program makes them.
-/
import Verif.Model.FAT.Directory
import Verif.Model.ExFAT.Directory
import Verif.Model.Scripts.Text
import Verif.Spec.Text
namespace Verif.Spec.FatTable
open Verif.Scripts Verif.Spec.Text

/-! ### Cells -/

/-- A cell with this text. -/
def textCell (s : String) : Cell := .str (Str.ofString s)

/-- Yes, no, or not known. -/
def answer : Option Bool → Cell
  | some true => textCell "Y"
  | some false => textCell "N"
  | none => textCell "?"

/-- The number of microseconds from 0001-01-01 00:00:00 to a date and time. -/
def moment (t : FAT.DateTime) : Nat :=
  (((dayNumber t.date.year t.date.month t.date.day * 24 + t.time.hour) * 60 + t.time.minute) * 60 + t.time.second) * 1000000 + t.microsecond

/-- The cell of a date and time: `YYYY-MM-DD hh:mm:ss.ffffff`. -/
def TimeCell : Option FAT.DateTime → Cell → Prop
  | none, c => c = textCell "N/A"
  | some t, c => ∃ s, c = .str s ∧ Denotes s (moment t)

/-- The cell of a date: `YYYY-MM-DD`, the text becomes one of midnight when a time is put after it. -/
def DateCell : Option FAT.Date → Cell → Prop
  | none, c => c = textCell "N/A"
  | some d, c => ∃ s, c = .str s ∧ Denotes (s ++ Str.ofString " 00:00:00.000000") (moment ⟨d, ⟨0, 0, 0⟩, 0⟩)

/-- A lower-case hexadecimal digit. -/
def hexDigit (c : Nat) : Option Nat :=
  if 0x30 ≤ c ∧ c ≤ 0x39 then some (c - 0x30) else if 0x61 ≤ c ∧ c ≤ 0x66 then some (c - 0x61 + 10) else none

/-- The bytes that a literal of Python has after its opening quotation mark: the printable characters of ASCII stand for
themselves, after a backslash there is a quotation mark, a backslash, one of the letters t, n and r, or x and two
hexadecimal digits. -/
def readBytes (quote : Nat) : Str → Option Bytes
  | [] => none
  | [c] => if c = quote then some [] else none
  | 0x5C :: 0x78 :: a :: b :: rest =>
    match hexDigit a, hexDigit b, readBytes quote rest with
    | some a, some b, some l => some (UInt8.ofNat (16 * a + b) :: l)
    | _, _, _ => none
  | 0x5C :: c :: rest =>
    if c = 0x5C ∨ c = 0x27 ∨ c = 0x22 then (readBytes quote rest).map (UInt8.ofNat c :: ·)
    else if c = 0x74 then (readBytes quote rest).map (9 :: ·)
    else if c = 0x6E then (readBytes quote rest).map (10 :: ·)
    else if c = 0x72 then (readBytes quote rest).map (13 :: ·)
    else none
  | c :: d :: rest => if c = quote ∨ c < 0x20 ∨ 0x7F ≤ c then none else (readBytes quote (d :: rest)).map (UInt8.ofNat c :: ·)

/-- The bytes that a literal of Python denotes, `b'…'` or `b"…"`. -/
def literal : Str → Option Bytes
  | 0x62 :: q :: rest => if q = 0x27 ∨ q = 0x22 then readBytes q rest else none
  | _ => none

/-! ### FAT12, FAT16 and FAT32 -/

/-- The names of the columns. -/
def fatColumns : Row :=
  ["Is deleted", "Is directory", "Path", "M timestamp", "A timestamp", "C/CH timestamp", "File size", "Is encrypted",
   "Short name (Python bytes)"].map textCell

/-- The row of a file, with this path. -/
def IsFatRow (e : FAT.FileEntry) (path : Str) (row : Row) : Prop :=
  ∃ m a c name, row = [answer e.isDeleted, answer (some e.isDirectory), .str path, m, a, c, .int e.size, answer (some e.isEncrypted), .str name] ∧
    TimeCell e.mtime m ∧ DateCell e.atime a ∧ TimeCell e.ctime c ∧ literal name = some e.shortNameRaw

/-- An entry for the label of the volume that is not deleted. -/
def IsLabel : FAT.Item → Prop
  | .file e => e.isDeleted ≠ some true ∧ e.attributes % 64 ≠ 15 ∧ e.attributes / 8 % 4 = 1
  | .orphan _ => False

/-- The row of an item; `label`: the item is the first label. -/
def IsRow (label : Prop) : FAT.Item → Row → Prop
  | .file e, row => ∃ path, (label → path = e.shortName ++ Str.ofString " (Volume Label)") ∧
      (¬ label → path = e.longName.getD e.shortName) ∧ IsFatRow e path row
  | .orphan (some s), row => row = textCell "?" :: textCell "?" :: .str (s ++ Str.ofString " (Partial Name)") :: List.replicate 6 (textCell "?")
  | .orphan none, _ => False

/-- Number `i` of the items is the first label. -/
def FirstLabel (items : List FAT.Item) (i : Nat) : Prop :=
  (∃ item, items[i]? = some item ∧ IsLabel item) ∧ ∀ (j : Nat) item, j < i → items[j]? = some item → ¬ IsLabel item

/-! ### exFAT -/

/-- The exceptions that say that a volume is not one of FAT12, FAT16 or FAT32: the one of a damaged file system, and those of its parts. -/
def refusals : List Exc :=
  [.FileSystemException, .BootSectorException, .FileSystemInfoException, .FileAllocationTableException, .DirectoryEntriesException]

/-- The names of the columns. -/
def exfatColumns : Row :=
  ["Is deleted", "Is directory", "Path", "M timestamp", "A timestamp", "C timestamp", "M/A/C TZ (minutes)", "File size",
   "Is encrypted"].map textCell

/-- The text of an offset from UTC, which is given in quarters of an hour: a sign and a number of minutes. -/
def ZoneText : Option Int → Str → Prop
  | none, s => s = Str.ofString "?"
  | some z, s =>
    (z = 0 → s = Str.ofString "0") ∧
    (z ≠ 0 → ∃ digits n, s = (if z < 0 then 0x2D else 0x2B) :: digits ∧ digits.head? ≠ some 0x30 ∧ decimalValue digits = some n ∧
      15 * z = if z < 0 then -(n : Int) else n)

/-- The row of an item. -/
def IsExfatRow : ExFAT.Item → Row → Prop
  | .file e, row => ∃ m a c mz az cz,
      row = [answer (some e.isDeleted), answer (some e.isDirectory), .str e.name, m, a, c,
        .str (mz ++ Str.ofString "/" ++ az ++ Str.ofString "/" ++ cz), .int e.size, answer (some e.isEncrypted)] ∧
      TimeCell e.mtime m ∧ TimeCell e.atime a ∧ TimeCell e.ctime c ∧ ZoneText e.mtz mz ∧ ZoneText e.atz az ∧ ZoneText e.ctz cz
  | .label s, row => row = [textCell "N", textCell "N", .str (s ++ Str.ofString " (Volume Label)"), textCell "?", textCell "?", textCell "?",
      textCell "?/?/?", textCell "0", textCell "N"]
  | .orphan s, row => row = [textCell "?", textCell "?", .str (s ++ Str.ofString " (Partial Name)"), textCell "?", textCell "?", textCell "?",
      textCell "?/?/?", textCell "?", textCell "?"]
  | .bitmap _ _ _, _ => False

end Verif.Spec.FatTable
