/-
Model of dfir_ntfs/LogFile.py:1748-1779: the text of a log record (`str(record)`).
-/
import Verif.Model.Scripts.Log
namespace Verif.LogFile
open Verif.Scripts (resolveOperation targetReference decimal signedDecimal)

/-- dfir_ntfs/LogFile.py:1749-1757: the length that is shown for an offset and a length. -/
def textLength (offset length : Nat) : Nat := if offset > 0 then length else 0

/-- dfir_ntfs/LogFile.py:1765-1774: the target.  `tables` are the tables set by `parse_ntfs_records`; without them (1731-1732) only file record
segments are known.  A missing name is written as `None`. -/
def targetText (config : Config) (tables : Option Item) (buf : Bytes) : Str :=
  match mftTargetNumber buf config.clusterSize with
  | some n => signedDecimal n ++ Str.ofString " (FRS number)"
  | none =>
    match tables.bind fun i => targetReference config.oatVersion i buf with
    | some t => decimal t.1 ++ Str.ofString "/" ++ t.2.getD (Str.ofString "None") ++ Str.ofString " (FRS reference / attribute name)"
    | none => Str.ofString "unknown"

/-- dfir_ntfs/LogFile.py:1776-1778. -/
def offsetText (config : Config) (buf : Bytes) : Str :=
  match offsetInTarget buf config.clusterSize with
  | some o => signedDecimal o
  | none => Str.ofString "unknown"

/-- dfir_ntfs/LogFile.py:1748-1780 `NTFSLogRecord.__str__`. -/
def recordText (config : Config) (tables : Option Item) (buf : Bytes) (lsn : Nat) : Except Exc Str := do
  let redo ← redoOffset buf                                                                  -- 1749
  let undo ← undoOffset buf                                                                  -- 1754
  let r := textLength redo (redoLength buf)
  let u := textLength undo (undoLength buf)
  let status := if r > 0 ∧ r = u ∧ redo = undo then "==" else "!="                           -- 1759-1762
  return Str.ofString "NTFSLogRecord (LSN: " ++ decimal lsn ++ Str.ofString "), redo operation: " ++ resolveOperation (redoOperation buf) ++
    Str.ofString " (length: " ++ decimal r ++ Str.ofString "), undo operation: " ++ resolveOperation (undoOperation buf) ++
    Str.ofString " (length: " ++ decimal u ++ Str.ofString "), redo " ++ Str.ofString status ++ Str.ofString " undo, target: " ++
    targetText config tables buf ++ Str.ofString ", offset in target: " ++ offsetText config buf

end Verif.LogFile
