/-
The report on a log file (used to state C108): which lines a section has, from the bytes of a restart area or of a log record.
-/
import Verif.Spec.MoveReport
import Verif.Spec.USN
import Verif.Spec.UsnTable
import Verif.Spec.MftTable
import Verif.Model.LogFile.Replay
import Verif.Model.Scripts.Text
import Verif.Model.Scripts.Move
namespace Verif.Spec.LogReport
open Verif.MFT Verif.Spec.Parser Verif.Scripts

/-! ### Texts -/

/-- A number in decimal. -/
def digits (n : Nat) : Str := if n < 10 then [0x30 + n] else digits (n / 10) ++ [0x30 + n % 10]

def signed (n : Int) : Str := if n < 0 then Str.ofString "-" ++ digits (-n).toNat else digits n.toNat

def line (label : String) (s : Str) : Str := Str.ofString label ++ s

/-- The number in the `n` bytes at `i`. -/
def field (b : Bytes) (i n : Nat) : Nat := leNat (slice b i (i + n))

/-- The FILETIME at `i`. -/
def time (b : Bytes) (i : Nat) : Str := filetimeText (Attributes.decodeFiletime (field b i 8))

/-- The lines with the modification, the access, the creation and the entry modification times. -/
def times (m a c e : Str) : List Str := [line " * M timestamp: " m, line " * A timestamp: " a, line " * C timestamp: " c, line " * E timestamp: " e]

/-- A line that depends on whether something is known. -/
def lineIf (label : String) : Option Str → List Str
  | some s => [line label s]
  | none => []

/-! ### Restart areas -/

/-- The lines for a restart area. -/
def area (b : Bytes) (lsn : Nat) : List Str :=
  [line "LSN: " (digits lsn),
   line "Restart area, version: " (digits (field b 0 4) ++ Str.ofString "." ++ digits (field b 4 4)),
   line " Start of checkpoint LSN: " (digits (field b 8 8)),
   Str.ofString " Tables (LSN and length):",
   line " * Open attribute table: " (digits (field b 16 8) ++ Str.ofString " " ++ digits (field b 48 4)),
   line " * Attribute names: " (digits (field b 24 8) ++ Str.ofString " " ++ digits (field b 52 4)),
   line " * Dirty page table: " (digits (field b 32 8) ++ Str.ofString " " ++ digits (field b 56 4)),
   line " * Transaction table: " (digits (field b 40 8) ++ Str.ofString " " ++ digits (field b 60 4))]

/-! ### Operations -/

/-- The names of the operations, by number. -/
def operations : List String := [
  "Noop", "CompensationLogRecord", "InitializeFileRecordSegment", "DeallocateFileRecordSegment", "WriteEndOfFileRecordSegment",
  "CreateAttribute", "DeleteAttribute", "UpdateResidentValue", "UpdateNonresidentValue", "UpdateMappingPairs", "DeleteDirtyClusters",
  "SetNewAttributeSizes", "AddIndexEntryRoot", "DeleteIndexEntryRoot", "AddIndexEntryAllocation", "DeleteIndexEntryAllocation",
  "WriteEndOfIndexBuffer", "SetIndexEntryVcnRoot", "SetIndexEntryVcnAllocation", "UpdateFileNameRoot", "UpdateFileNameAllocation",
  "SetBitsInNonresidentBitMap", "ClearBitsInNonresidentBitMap", "HotFix", "EndTopLevelAction", "PrepareTransaction", "CommitTransaction",
  "ForgetTransaction", "OpenNonresidentAttribute", "OpenAttributeTableDump", "AttributeNamesDump", "DirtyPageTableDump",
  "TransactionTableDump", "UpdateRecordDataRoot", "UpdateRecordDataAllocation", "UpdateRelativeDataIndex", "UpdateRelativeDataAllocation",
  "ZeroEndOfFileRecord"]

/-- An operation as text: its name, or its number in hexadecimal when it has no name. -/
def operation (n : Nat) : Str :=
  match operations[n]? with
  | some name => Str.ofString name
  | none => Str.ofString "0x" ++ MoveReport.digits (if n < 0x100 then 2 else if n < 0x1000 then 3 else 4) n

/-- The operation to be redone, and the one to undo it, are among some operations. -/
def Redoes (b : Bytes) (names : List String) : Prop := ∃ name ∈ names, operations[field b 0 2]? = some name
def Undoes (b : Bytes) (names : List String) : Prop := ∃ name ∈ names, operations[field b 2 2]? = some name
def Does (b : Bytes) (names : List String) : Prop := Redoes b names ∨ Undoes b names

/-- The operations on file record segments. -/
def onSegments : List String := ["InitializeFileRecordSegment", "DeallocateFileRecordSegment", "WriteEndOfFileRecordSegment",
  "CreateAttribute", "DeleteAttribute", "UpdateResidentValue", "UpdateMappingPairs", "SetNewAttributeSizes", "AddIndexEntryRoot",
  "DeleteIndexEntryRoot", "SetIndexEntryVcnRoot", "UpdateFileNameRoot", "UpdateRecordDataRoot", "UpdateRelativeDataIndex",
  "ZeroEndOfFileRecord"]

/-- The operations on the contents of nonresident attributes. -/
def onAttributes : List String := ["UpdateNonresidentValue", "AddIndexEntryAllocation", "DeleteIndexEntryAllocation", "WriteEndOfIndexBuffer",
  "SetIndexEntryVcnAllocation", "UpdateFileNameAllocation", "SetBitsInNonresidentBitMap", "ClearBitsInNonresidentBitMap",
  "UpdateRecordDataAllocation", "UpdateRelativeDataAllocation"]

/-! ### The data of a log record -/

/-- The data whose offset and length are at `i`: none, or bytes after the header of the record (an offset of zero is accepted, too). -/
def IsData (b : Bytes) (i : Nat) (d : Bytes) : Prop :=
  (field b (i + 2) 2 = 0 ∧ d = []) ∨
  (field b (i + 2) 2 ≠ 0 ∧ (field b i 2 = 0 ∨ 32 ≤ field b i 2) ∧ d = slice b (field b i 2) (field b i 2 + field b (i + 2) 2))

/-- The redo data and the undo data. -/
def Data (b redo undo : Bytes) : Prop := IsData b 4 redo ∧ IsData b 8 undo

/-- The numbers of clusters after the header of the record. -/
def clusters (b : Bytes) : List Int := (List.range (field b 14 2)).map fun i => leInt (slice b (32 + 8 * i) (40 + 8 * i))

/-- All these numbers are in the record. -/
def ClustersInside (b : Bytes) : Prop := field b 14 2 = 0 ∨ 32 + 8 * field b 14 2 ≤ b.length

/-! ### The target -/

/-- The first path of the file with this number (and this sequence number).  There is none when there is no such file in the file table. -/
def IsPath (p : MFT.Parser) (n : Nat) (sequence : Option Nat) (path : Option Str) : Prop :=
  (∃ e, p.getRecord n sequence = .error e ∧ isMftExc e = true ∧ path = none) ∨
  ∃ r, p.getRecord n sequence = .ok r ∧
    ((∃ paths, p.buildFullPaths r = some (.ok paths) ∧ path = paths.head?.map (·.1)) ∨
     ∃ e, p.buildFullPaths r = some (.error e) ∧ isMftExc e = true ∧ path = none)

/-- The size of the target, in bytes. -/
def targetSize (b : Bytes) : Nat := if field b 22 2 = 0 then 1024 else 512 * field b 22 2

/-- The position that the record is about, in the file table or in the attribute. -/
def position (b : Bytes) (clusterSize : Nat) : Int := leInt (slice b 24 32) * clusterSize + 512 * field b 20 2

/-- The name of an attribute in a dump of attribute names: the index, the length, the name, and two more bytes. -/
inductive IsName : Bytes → Nat → Option Str → Prop
  | found (dump : Bytes) (h : 8 ≤ dump.length) :
      IsName dump (field dump 0 2) (some (utf16Decode (slice dump 4 (4 + field dump 2 2))))
  | next (dump : Bytes) (k : Nat) (name : Option Str) (h : 8 ≤ dump.length) (hk : field dump 0 2 ≠ k)
      (hn : IsName (dump.drop (6 + field dump 2 2)) k name) : IsName dump k name
  | last (dump : Bytes) (k : Nat) (h : dump.length < 8) : IsName dump k none

/-- The reference in the entry at `k` of a dump of the open attribute table. -/
def IsReference (version : Nat) (dump : Bytes) (k reference : Nat) : Prop :=
  if version = 0 then k + 44 ≤ dump.length ∧ reference = field dump (k + 8) 8
  else k + 40 ≤ dump.length ∧ reference = field dump (k + 16) 8

/-- The file and the name of the open attribute `k`, from the tables of a log record: from the operations that opened attributes, or from the
dumps. -/
def IsOpen (version : Nat) (i : LogFile.Item) (k reference : Nat) (name : Option Str) : Prop :=
  match i.oat.find? (·.1 = k) with
  | some e => reference = e.2.1 ∧ name = some e.2.2
  | none => ∃ oat names, i.oatDump = some oat ∧ i.anDump = some names ∧ IsReference version oat k reference ∧ IsName names k name

/-- The lines about the target, and the name of the attribute. -/
inductive IsTarget (p : MFT.Parser) (config : LogFile.Config) (i : LogFile.Item) (b : Bytes) : List Str → Option Str → Prop
  | segment (n : Nat) (path : Option Str) (h : Does b onSegments)
      (h1 : n * targetSize b ≤ position b config.clusterSize) (h2 : position b config.clusterSize < (n + 1) * targetSize b)
      (hp : IsPath p n none path) :
      IsTarget p config i b (line "Target (file number): " (digits n) ::
        lineIf "Target path (from $MFT, likely wrong if the file was deleted later): " path) none
  | opened (reference : Nat) (name path : Option Str) (h : ¬ Does b onSegments) (ha : Does b onAttributes)
      (ho : IsOpen config.oatVersion i (field b 12 2) reference name)
      (hp : IsPath p (number reference) (some (sequence reference)) path) :
      IsTarget p config i b (line "Target (file reference number): " (digits reference) ::
        line "Target (attribute name): " (name.getD (Str.ofString "-")) :: lineIf "Target path (from $MFT): " path) name
  | unknown (h : ¬ Does b onSegments) (ha : Does b onAttributes → ∀ reference name, ¬ IsOpen config.oatVersion i (field b 12 2) reference name) :
      IsTarget p config i b [line "Unknown target, target attribute: " (digits (field b 12 2))] none

/-- The offset in the target. -/
inductive IsOffset (config : LogFile.Config) (b : Bytes) : Option Int → Prop
  | segment (h : Does b onSegments) : IsOffset config b (some (field b 16 2 + field b 18 2))
  | opened (h : ¬ Does b onSegments) (ha : Does b onAttributes) :
      IsOffset config b (some (position b config.clusterSize + field b 16 2 + field b 18 2))
  | unknown (h : ¬ Does b onSegments) (ha : ¬ Does b onAttributes) : IsOffset config b none

def offsetLines : Option Int → List Str
  | some o => [line "Offset in target: " (signed o)]
  | none => [Str.ofString "Unknown offset in target"]

/-! ### Decoded data -/

/-- The lines for a `$FILE_NAME`. -/
inductive IsNameBlock (p : MFT.Parser) (title : String) (v : Bytes) : List Str → Prop
  | intro (path : Option Str) (h : 65 ≤ v.length) (hp : IsPath p (number (parentOf v)) (some (sequence (parentOf v))) path) :
      IsNameBlock p title v ([Str.ofString title] ++ times (time v 16) (time v 32) (time v 8) (time v 24) ++
        [line " * File name: " (nameOf v), line " * Parent (file reference number): " (digits (parentOf v))] ++
        lineIf " * Parent path (from $MFT): " path ++ [[]])

/-- The GUID of an `$OBJECT_ID` and its time. -/
def objectGuid (v : Bytes) : Str := if 16 ≤ v.length then MoveReport.guid (slice v 0 16) else Str.ofString "None"
def objectTime (v : Bytes) : Str :=
  guidTimeText (if 16 ≤ v.length then (MoveReport.guidUnits (slice v 0 16)).bind Attributes.decodeGuidTime else none)

/-- The lines for a value of an attribute type. -/
inductive IsValueBlock (p : MFT.Parser) : Nat → Bytes → List Str → Prop
  | standardInformation (v : Bytes) (h : 36 ≤ v.length) :
      IsValueBlock p 0x10 v ([Str.ofString "$STANDARD_INFORMATION:"] ++ times (time v 8) (time v 24) (time v 0) (time v 16) ++
        [line " * File attributes: " (Attributes.resolveFileAttributes (field v 32 4)), []])
  | fileName (v : Bytes) (lines : List Str) (h : IsNameBlock p "$FILE_NAME:" v lines) : IsValueBlock p 0x30 v lines
  | objectId (v : Bytes) :
      IsValueBlock p 0x40 v [Str.ofString "$OBJECT_ID:", line " * GUID: " (objectGuid v), line " * Timestamp: " (objectTime v), []]
  | other (t : Nat) (v : Bytes) (h1 : t ≠ 0x10) (h2 : t ≠ 0x30) (h3 : t ≠ 0x40) : IsValueBlock p t v []

/-- The lines for an attribute of a file record segment: only for resident attributes (an `$INDEX_ALLOCATION` is never resident). -/
inductive IsAttributeBlock (p : MFT.Parser) : AttributeRecord → List Str → Prop
  | resident (t : Nat) (name : Option Bytes) (v : Bytes) (lines : List Str) (ht : t ≠ 0xA0) (h : IsValueBlock p t v lines) :
      IsAttributeBlock p (.resident t name v) lines
  | nonresident (a : AttributeRecord) (h : ∀ t name v, a ≠ .resident t name v) : IsAttributeBlock p a []

/-- The blocks for the elements of a list, one after the other. -/
inductive Blocks {α : Type} (R : α → List Str → Prop) : List α → List Str → Prop
  | nil : Blocks R [] []
  | cons (x : α) (l : List α) (first rest : List Str) (h : R x first) (hr : Blocks R l rest) : Blocks R (x :: l) (first ++ rest)

/-- The lines for a new file record segment: for the attributes in the redo data, padded with zero bytes, if this is a file record segment. -/
inductive IsSegmentBlock (p : MFT.Parser) (b redo : Bytes) : List Str → Prop
  | other (h : ¬ Redoes b ["InitializeFileRecordSegment"]) : IsSegmentBlock p b redo []
  | invalid (h : Redoes b ["InitializeFileRecordSegment"]) (e : Exc)
      (hf : FileRecordSegment.init (redo ++ zeros (targetSize b - redo.length)) false = .error e) (he : isMftExc e = true) :
      IsSegmentBlock p b redo []
  | segment (h : Redoes b ["InitializeFileRecordSegment"]) (f : FileRecordSegment) (lines : List Str)
      (hf : FileRecordSegment.init (redo ++ zeros (targetSize b - redo.length)) false = .ok f)
      (he : ∀ e, f.attributes.err = some e → isMftExc e = true)
      (hl : Blocks (IsAttributeBlock p) (f.attributes.items.map (·.attr)) lines) : IsSegmentBlock p b redo lines

/-- The data that has a new attribute: that of the operation that creates it, or the longer one. -/
inductive NewAttribute (b redo undo : Bytes) : Bytes → Prop
  | redo (h : Redoes b ["CreateAttribute"]) : NewAttribute b redo undo redo
  | undo (h : ¬ Redoes b ["CreateAttribute"]) (hu : Undoes b ["CreateAttribute"]) : NewAttribute b redo undo undo
  | longer (h : ¬ Does b ["CreateAttribute"]) (hw : Does b ["WriteEndOfFileRecordSegment"]) (hl : undo.length < redo.length) :
      NewAttribute b redo undo redo
  | notLonger (h : ¬ Does b ["CreateAttribute"]) (hw : Does b ["WriteEndOfFileRecordSegment"]) (hl : redo.length ≤ undo.length) :
      NewAttribute b redo undo undo

/-- A resident attribute with a value of its own inside of some bytes. -/
def HasValue (a : Bytes) (v : Bytes) : Prop :=
  24 ≤ a.length ∧ 0 < field a 20 2 ∧ field a 20 2 % 8 = 0 ∧ 0 < field a 16 4 ∧ field a 20 2 + field a 16 4 ≤ a.length ∧
  v = slice a (field a 20 2) (field a 20 2 + field a 16 4)

/-- The lines for a new attribute. -/
inductive IsCreateBlock (p : MFT.Parser) (b redo undo : Bytes) : List Str → Prop
  | value (a v : Bytes) (lines : List Str) (h : NewAttribute b redo undo a) (hv : HasValue a v) (hl : IsValueBlock p (field a 0 4) v lines) :
      IsCreateBlock p b redo undo lines
  | none (h : ∀ a v, NewAttribute b redo undo a → ¬ HasValue a v) : IsCreateBlock p b redo undo []

/-- The time at `i` of a `$STANDARD_INFORMATION` of which only `d`, at `o`, is known. -/
def partialTime (d : Bytes) (o i : Nat) : Str := if o ≤ i ∧ i + 8 ≤ o + d.length then time d (i - o) else Str.ofString "N/A"

/-- The lines for what may be an update of a `$STANDARD_INFORMATION` (from `o` on). -/
def partialBlock (title : String) (d : Bytes) (o : Nat) : List Str :=
  if 8 ≤ d.length then [Str.ofString title] ++ times (partialTime d o 8) (partialTime d o 24) (partialTime d o 0) (partialTime d o 16) ++ [[]] else []

/-- Where the value of the first attribute of a file record segment begins. -/
def firstValue (size : Nat) : Option Nat := if size = 1024 then some 80 else if size = 4096 then some 96 else none

/-- The lines for an update of a resident value. -/
inductive IsUpdateBlock (b redo undo : Bytes) (offset : Option Int) : List Str → Prop
  | update (start o : Nat) (h : Does b ["UpdateResidentValue"]) (hs : firstValue (targetSize b) = some start) (ho : offset = some (start + o : Int))
      (h32 : o ≤ 32) : IsUpdateBlock b redo undo offset (partialBlock "Possible update to $STANDARD_INFORMATION (redo data):" redo o ++
        partialBlock "Possible update to $STANDARD_INFORMATION (undo data):" undo o)
  | none (h : Does b ["UpdateResidentValue"] → ∀ start o : Nat, firstValue (targetSize b) = some start → offset = some (start + o : Int) → 32 < o) :
      IsUpdateBlock b redo undo offset []

/-- The operations that write an index entry. -/
def addIndexEntry : List String := ["AddIndexEntryRoot", "AddIndexEntryAllocation", "WriteEndOfIndexBuffer"]

/-- The data with the index entry. -/
inductive NewEntry (b redo undo : Bytes) : Bytes → Prop
  | redo (h : Redoes b addIndexEntry) : NewEntry b redo undo redo
  | undo (h : ¬ Redoes b addIndexEntry) (hu : Undoes b addIndexEntry) : NewEntry b redo undo undo

/-- The lines for an index entry; there are none when it is the last one in its node or has no room for a `$FILE_NAME`. -/
inductive IsEntryBlock (p : MFT.Parser) (b redo undo : Bytes) : List Str → Prop
  | name (d v : Bytes) (lines : List Str) (h : NewEntry b redo undo d) (h14 : 14 ≤ d.length) (hv : MftTable.entryName d = some v)
      (hl : 66 < v.length) (hb : IsNameBlock p "$FILE_NAME in index:" v lines) : IsEntryBlock p b redo undo lines
  | empty (d : Bytes) (h : NewEntry b redo undo d) (h14 : 14 ≤ d.length) (hv : ∀ v, MftTable.entryName d = some v → v.length ≤ 66) :
      IsEntryBlock p b redo undo []
  | other (h : ¬ Does b addIndexEntry) : IsEntryBlock p b redo undo []

/-- The lines for the duplicated information of a file name. -/
def duplicatedBlock (title : String) (d : Bytes) : List Str :=
  if d.length = 56 then [Str.ofString title] ++ times (time d 8) (time d 24) (time d 0) (time d 16) ++ [[]] else []

/-- The operations that change it. -/
def updateFileName : List String := ["UpdateFileNameRoot", "UpdateFileNameAllocation"]

/-- The lines for an update of the duplicated information. -/
def IsDuplicatedBlock (b redo undo : Bytes) (lines : List Str) : Prop :=
  ∃ first second, lines = first ++ second ∧
    (Redoes b updateFileName → first = duplicatedBlock "Update to duplicated information (redo data):" redo) ∧
    (¬ Redoes b updateFileName → first = []) ∧
    (Undoes b updateFileName → second = duplicatedBlock "Update to duplicated information (undo data):" undo) ∧
    (¬ Undoes b updateFileName → second = [])

/-- The lines for a record of the change journal at the beginning of some bytes. -/
inductive IsJournalBlock (d : Bytes) : List Str → Prop
  | invalid (h : ¬ USN.ValidRecord (slice d 0 (field d 0 4))) : IsJournalBlock d []
  | record (r : Bytes) (hr : r = slice d 0 (field d 0 4)) (h : USN.ValidRecord r) (hn : UsnTable.NameInside r) :
      IsJournalBlock d ([Str.ofString (if UsnTable.version r = 4 then "USN record (version 4):" else "USN record:"),
        line " Number: " (digits (UsnTable.usn r)),
        line " Source: " (Verif.USN.resolveSourceCodes (UsnTable.source r)), line " Reason: " (Verif.USN.resolveReasonCodes (UsnTable.reason r)),
        line " File reference number: " (digits (UsnTable.file r)), line " Parent file reference number: " (digits (UsnTable.parent r))] ++
        (if UsnTable.version r = 4 then [] else
          [line " Timestamp: " (filetimeText (Attributes.decodeFiletime (UsnTable.timestamp r))),
           line " File name: " (utf16Decode (slice r (UsnTable.nameOffset r) (UsnTable.nameOffset r + UsnTable.nameLength r)))]) ++ [[]])

/-- The lines for an update of the change journal: of the attribute named `$J`. -/
def IsJournalUpdate (b redo undo : Bytes) (name : Option Str) (lines : List Str) : Prop :=
  ∃ first second, lines = first ++ second ∧
    (name = some (Str.ofString "$J") ∧ Redoes b ["UpdateNonresidentValue"] → IsJournalBlock redo first) ∧
    (¬ (name = some (Str.ofString "$J") ∧ Redoes b ["UpdateNonresidentValue"]) → first = []) ∧
    (name = some (Str.ofString "$J") ∧ Undoes b ["UpdateNonresidentValue"] → IsJournalBlock undo second) ∧
    (¬ (name = some (Str.ofString "$J") ∧ Undoes b ["UpdateNonresidentValue"]) → second = [])

/-! ### Sections -/

/-- The first lines of a log record. -/
def head (b : Bytes) (lsn transaction : Nat) : List Str :=
  [line "LSN: " (digits lsn), line "Transaction ID: " (digits transaction),
   line "Log record, redo operation: " (operation (field b 0 2) ++ Str.ofString ", undo operation: " ++ operation (field b 2 2))]

/-- The numbers separated by spaces. -/
def spaced : List Str → Str
  | [] => []
  | [s] => s
  | s :: t :: rest => s ++ Str.ofString " " ++ spaced (t :: rest)

def clusterLines (b : Bytes) : List Str := if field b 14 2 = 0 then [] else [line "LCN(s): " (spaced ((clusters b).map signed))]

/-- The lines with the raw data, as hexadecimal dumps (see C91). -/
def dumps (redo undo : Bytes) : List Str := [Str.ofString "Redo data:", hexdump redo, [], Str.ofString "Undo data:", hexdump undo, []]

/-- The number of a deleted file. -/
def IsDeletion (config : LogFile.Config) (b : Bytes) (text : Option Str) : Prop :=
  (Redoes b ["DeallocateFileRecordSegment"] ∧ ∃ n : Int, n * targetSize b ≤ position b config.clusterSize ∧
    position b config.clusterSize < (n + 1) * targetSize b ∧ text = some (signed n)) ∨
  (¬ Redoes b ["DeallocateFileRecordSegment"] ∧ text = none)

/-- The lines for a log record, and what is added to the list of deleted files. -/
inductive IsRecord (p : MFT.Parser) (config : LogFile.Config) (i : LogFile.Item) (b : Bytes) (lsn transaction : Nat) : List Str → Option Str → Prop
  | truncated (redo undo : Bytes) (target : List Str) (name : Option Str) (offset : Option Int) (hd : Data b redo undo)
      (ht : IsTarget p config i b target name) (ho : IsOffset config b offset) (hc : ¬ ClustersInside b) :
      IsRecord p config i b lsn transaction (head b lsn transaction ++ target ++ offsetLines offset ++ [Str.ofString "Warning: truncated page"]) none
  | complete (redo undo : Bytes) (target : List Str) (name : Option Str) (offset : Option Int) (l1 l2 l3 l4 l5 l6 : List Str) (deleted : Option Str)
      (hd : Data b redo undo) (ht : IsTarget p config i b target name) (ho : IsOffset config b offset) (hc : ClustersInside b)
      (h1 : IsSegmentBlock p b redo l1) (h2 : IsCreateBlock p b redo undo l2) (h3 : IsUpdateBlock b redo undo offset l3)
      (h4 : IsEntryBlock p b redo undo l4) (h5 : IsDuplicatedBlock b redo undo l5) (h6 : IsJournalUpdate b redo undo name l6)
      (hx : IsDeletion config b deleted) :
      IsRecord p config i b lsn transaction
        (head b lsn transaction ++ target ++ offsetLines offset ++ clusterLines b ++ dumps redo undo ++ l1 ++ l2 ++ l3 ++ l4 ++ l5 ++ l6) deleted

/-- The lines for an item. -/
def IsItem (p : MFT.Parser) (config : LogFile.Config) (i : LogFile.Item) (lines : List Str) (deleted : Option Str) : Prop :=
  match i.decoded with
  | .restartArea b lsn => lines = area b lsn ∧ deleted = none
  | .logRecord b lsn transaction => IsRecord p config i b lsn transaction lines deleted

/-- Lines, each but the last one followed by a line feed. -/
def joined : List Str → Str
  | [] => []
  | [s] => s
  | s :: t :: rest => s ++ [0x0A] ++ joined (t :: rest)

/-- A section: the lines, and the separator. -/
def sectionText (lines : List Str) : Str := joined lines ++ Str.ofString "\n\n---\n\n"

/-- The last section, for the deleted files; there is none when no file was deleted. -/
def deletions : List Str → List Str
  | [] => []
  | s :: rest => [Str.ofString "Files and directories with these MFT numbers were deleted (in this order):\n" ++ spaced (s :: rest) ++
      Str.ofString "\n\n---\n\n"]

end Verif.Spec.LogReport
