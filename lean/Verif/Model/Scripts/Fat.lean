/-
Model of the program fat_parser: the table of the files of a FAT or exFAT volume.
-/
import Verif.Model.FAT.Parser
import Verif.Model.ExFAT.Parser
import Verif.Model.Scripts.Tables
import Verif.Model.Scripts.Move
namespace Verif.Scripts

/-- fat_parser:16-26 `format_tz_item`. -/
def formatTzItem : Option Int → Str
  | none => Str.ofString "?"                                                          -- 18
  | some tz =>
    if tz = 0 then Str.ofString "0"                                                   -- 21
    else if tz > 0 then Str.ofString "+" ++ signedDecimal (tz * 15)                   -- 24
    else Str.ofString "-" ++ signedDecimal (tz * -15)                                 -- 26

/-- fat_parser:28-29 `format_tz`. -/
def formatTz (mtz atz ctz : Option Int) : Str :=
  formatTzItem mtz ++ Str.ofString "/" ++ formatTzItem atz ++ Str.ofString "/" ++ formatTzItem ctz

/-- `strftime('%Y-%m-%d')` (fat_parser:36). -/
def dateText (d : FAT.Date) : Str := fixedDec 4 d.year ++ [0x2D] ++ fixedDec 2 d.month ++ [0x2D] ++ fixedDec 2 d.day

/-- `strftime('%Y-%m-%d %H:%M:%S.%f')` (fat_parser:38). -/
def dateTimeText (t : FAT.DateTime) : Str :=
  dateText t.date ++ [0x20] ++ fixedDec 2 t.time.hour ++ [0x3A] ++ fixedDec 2 t.time.minute ++ [0x3A] ++
    fixedDec 2 t.time.second ++ [0x2E] ++ fixedDec 6 t.microsecond

/-- fat_parser:31-38 `format_timestamp`, for a `date`. -/
def formatDate : Option FAT.Date → Cell
  | none => text "N/A"
  | some d => .str (dateText d)

/-- fat_parser:31-38 `format_timestamp`, for a `datetime`. -/
def formatDateTime : Option FAT.DateTime → Cell
  | none => text "N/A"
  | some t => .str (dateTimeText t)

/-- fat_parser:40-47 `format_boolean`. -/
def formatBoolean : Option Bool → Cell
  | none => text "?"
  | some true => text "Y"
  | some false => text "N"

/-- A byte in the `repr` of a `bytes` object with this quotation mark (`csv.writer` writes `str(short_name_raw)`,
fat_parser:97, 104). -/
def reprByte (quote : Nat) (b : UInt8) : Str :=
  let c := b.toNat
  if c = quote ∨ c = 0x5C then [0x5C, c]
  else if c = 0x09 then Str.ofString "\\t"
  else if c = 0x0A then Str.ofString "\\n"
  else if c = 0x0D then Str.ofString "\\r"
  else if c < 0x20 ∨ c ≥ 0x7F then Str.ofString "\\x" ++ lowerHex [b]
  else [c]

/-- The `repr` of a `bytes` object (`csv.writer` writes `str(short_name_raw)`, fat_parser:97, 104). -/
def bytesRepr (b : Bytes) : Str :=
  let quote := if 0x27 ∈ b ∧ 0x22 ∉ b then 0x22 else 0x27
  [0x62, quote] ++ b.flatMap (reprByte quote) ++ [quote]

/-- fat_parser:87: the names of the columns for FAT12, FAT16 and FAT32. -/
def fatHeader : Row :=
  [text "Is deleted", text "Is directory", text "Path", text "M timestamp", text "A timestamp", text "C/CH timestamp", text "File size",
   text "Is encrypted", text "Short name (Python bytes)"]

/-- fat_parser:97, 104: the row of a file. -/
def fatRow (e : FAT.FileEntry) (path : Str) : Row :=
  [formatBoolean e.isDeleted, formatBoolean (some e.isDirectory), .str path, formatDateTime e.mtime, formatDate e.atime, formatDateTime e.ctime,
   .int e.size, formatBoolean (some e.isEncrypted), .str (bytesRepr e.shortNameRaw)]

/-- fat_parser:90: the row of a part of a long name. -/
def fatOrphanRow (name : Str) : Row :=
  [text "?", text "?", .str (name ++ Str.ofString " (Partial Name)"), text "?", text "?", text "?", text "?", text "?", text "?"]

/-- fat_parser:93: the entry of the label of the volume. -/
def isLabelItem (e : FAT.FileEntry) : Bool := decide (e.isDeleted ≠ some true) && FAT.isVolumeLabel e.attributes

/-- fat_parser:88-104: the loop over the items of the walk, with `found_label`. -/
def fatRows : (foundLabel : Bool) → List FAT.Item → Gen Row
  | _, [] => .done
  | _, .orphan none :: _ => .fail .TypeError                                           -- 90
  | found, .orphan (some s) :: rest => .cons (fatOrphanRow s) (fatRows found rest)
  | found, .file e :: rest =>
    if !found && isLabelItem e then .cons (fatRow e (e.shortName ++ Str.ofString " (Volume Label)")) (fatRows true rest)   -- 93
    else .cons (fatRow e (e.longName.getD e.shortName)) (fatRows found rest)

/-- fat_parser:82-104: the table of a FAT volume, when the walk gives these items. -/
def fatTable (items : Gen FAT.Item) : Gen Row :=
  .cons fatHeader ((fatRows false items.items).append ⟨[], items.err⟩)

/-- fat_parser:108: the names of the columns for exFAT. -/
def exfatHeader : Row :=
  [text "Is deleted", text "Is directory", text "Path", text "M timestamp", text "A timestamp", text "C timestamp", text "M/A/C TZ (minutes)",
   text "File size", text "Is encrypted"]

/-- fat_parser:109-121: the row of an item of the walk.  A bitmap has no `name`; the walk gives none. -/
def exfatRow : ExFAT.Item → Except Exc Row
  | .label s =>                                                                        -- 110-113
    .ok [text "N", text "N", .str (s ++ Str.ofString " (Volume Label)"), text "?", text "?", text "?", text "?/?/?", text "0", text "N"]
  | .orphan s =>                                                                       -- 115-117
    .ok [text "?", text "?", .str (s ++ Str.ofString " (Partial Name)"), text "?", text "?", text "?", text "?/?/?", text "?", text "?"]
  | .bitmap _ _ _ => .error .AttributeError                                            -- 119
  | .file e =>                                                                         -- 121
    .ok [formatBoolean (some e.isDeleted), formatBoolean (some e.isDirectory), .str e.name, formatDateTime e.mtime, formatDateTime e.atime,
      formatDateTime e.ctime, .str (formatTz e.mtz e.atz e.ctz), .int e.size, formatBoolean (some e.isEncrypted)]

/-- fat_parser:105-121: the table of an exFAT volume, when the walk gives these items. -/
def exfatTable (items : Gen ExFAT.Item) : Gen Row :=
  .cons exfatHeader (forGen (fun item => match exfatRow item with | .ok row => .cons row .done | .error e => .fail e) items)

/-- `except FAT.FileSystemException` (fat_parser:76): the class and its subclasses (dfir_ntfs/addons/FAT.py:481-508). -/
def isFatException (e : Exc) : Bool :=
  decide (e ∈ [.FileSystemException, .BootSectorException, .FileSystemInfoException, .FileAllocationTableException, .DirectoryEntriesException])

/-- fat_parser:74-121: what the program writes for a volume in an image.  The arguments of the command line are
not modelled; the offset is not negative.  `order` and `depth` are those of the walks (FAT.py:1682-1690): an order of the sets that
Python does not fix, and a bound that is never reached (`C63_terminates`, `C72_terminates`); `none` means that it was. -/
def fatParser (image : Bytes) (offset : Nat) (order : List Nat → List Nat) (depth : Nat) : Option (Gen Row) :=
  match FAT.openVolume image offset none with
  | .ok v => (v.walk FAT.ascii false order depth).map fatTable
  | .error e =>
    if isFatException e then
      match ExFAT.openVolume image offset none with                                    -- 82
      | .ok v => (v.walk false order depth).map exfatTable
      | .error e => some (.fail e)
    else some (.fail e)

end Verif.Scripts
