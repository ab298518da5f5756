/-
The text of a log record (used to state C121).
-/
import Verif.Spec.LogReport
namespace Verif.Spec.RecordText
open Verif.Spec.LogReport

/-- The offset at `i` is zero (no data), or after the header of the record. -/
def OffsetAccepted (b : Bytes) (i : Nat) : Prop := field b i 2 = 0 ∨ 32 ≤ field b i 2

/-- The length that is shown for the data whose offset and length are at `i`: zero when there is no offset. -/
def shownLength (b : Bytes) (i : Nat) : Nat := if field b i 2 = 0 then 0 else field b (i + 2) 2

/-- The redo data and the undo data are one and the same part of the record, which is not empty. -/
def OnePart (b : Bytes) : Prop := shownLength b 4 ≠ 0 ∧ shownLength b 4 = shownLength b 8 ∧ field b 4 2 = field b 8 2

/-- The target: the number of a file record segment (which may be negative), or the reference of a file and the name of an attribute, if the
tables of the log record are known and have them. -/
inductive IsTargetText (config : LogFile.Config) (tables : Option LogFile.Item) (b : Bytes) : Str → Prop
  | segment (n : Int) (h : Does b onSegments) (h1 : n * targetSize b ≤ position b config.clusterSize)
      (h2 : position b config.clusterSize < (n + 1) * targetSize b) : IsTargetText config tables b (signed n ++ Str.ofString " (FRS number)")
  | opened (i : LogFile.Item) (reference : Nat) (name : Option Str) (ht : tables = some i) (h : ¬ Does b onSegments) (ha : Does b onAttributes)
      (ho : IsOpen config.oatVersion i (field b 12 2) reference name) :
      IsTargetText config tables b (digits reference ++ Str.ofString "/" ++ name.getD (Str.ofString "None") ++
        Str.ofString " (FRS reference / attribute name)")
  | unknown (h : ¬ Does b onSegments)
      (ha : ∀ i, tables = some i → Does b onAttributes → ∀ reference name, ¬ IsOpen config.oatVersion i (field b 12 2) reference name) :
      IsTargetText config tables b (Str.ofString "unknown")

/-- The offset in the target. -/
def offsetText : Option Int → Str
  | some o => signed o
  | none => Str.ofString "unknown"

/-- The text of a log record, up to the target. -/
def beginning (lsn redo redoLength undo undoLength : Nat) (status : String) : Str :=
  Str.ofString "NTFSLogRecord (LSN: " ++ digits lsn ++ Str.ofString "), redo operation: " ++ operation redo ++
    Str.ofString " (length: " ++ digits redoLength ++ Str.ofString "), undo operation: " ++ operation undo ++
    Str.ofString " (length: " ++ digits undoLength ++ Str.ofString "), redo " ++ Str.ofString status ++ Str.ofString " undo, target: "

/-- The text of a log record. -/
def IsText (config : LogFile.Config) (tables : Option LogFile.Item) (b : Bytes) (lsn : Nat) (text : Str) : Prop :=
  OffsetAccepted b 4 ∧ OffsetAccepted b 8 ∧ ∃ status target offset,
    (status = "==" ∧ OnePart b ∨ status = "!=" ∧ ¬ OnePart b) ∧ IsTargetText config tables b target ∧ IsOffset config b offset ∧
    text = beginning lsn (field b 0 2) (shownLength b 4) (field b 2 2) (shownLength b 8) status ++ target ++
      Str.ofString ", offset in target: " ++ offsetText offset

end Verif.Spec.RecordText
