/-
Model of the program `ntfs_parser --mem`: the table of the timestamps carved from a memory image.

The timestamps are given to the CSV writer as they are, which writes `str()` of them (and nothing for `None`), so they
do not look as in the other tables.
-/
import Verif.Model.Scripts.Tables
import Verif.Model.MFT.Carver
namespace Verif.Scripts
open Verif.MFT

/-- `str()` of a `datetime` (ntfs_parser:891): as `format_timestamp`, but without a fraction when it is zero. -/
def strDatetime (t : Nat) : Str := if t % 1000000 = 0 then (strftime t).take 19 else strftime t

/-- A decoded FILETIME in a row (ntfs_parser:891). -/
def datetimeCell : Option Nat → Cell
  | none => .none
  | some t => .str (strDatetime (epoch1601 + t))

/-- ntfs_parser:888: the header of the table. -/
def memHeader : Row := ["Possible MFT reference number", "M timestamp", "A timestamp", "C timestamp", "E timestamp", "A timestamp (real)"].map text

/-- ntfs_parser:891: the row of a block. -/
def memRow (x : FCBTimestamps) : Row :=
  [.int x.possibleFileReference, datetimeCell x.mtime, datetimeCell x.atime, datetimeCell x.ctime, datetimeCell x.etime, datetimeCell x.atimeReal]

/-- ntfs_parser:883-891 `process_mem`.  The object is new, so no positions are known (dfir_ntfs/MFT.py:1612-1613). -/
def processMem (image : Bytes) : Gen Row :=
  .cons memHeader (forGen (fun x => .cons (memRow x) .done) (carveTimestamps none image).1)

end Verif.Scripts
