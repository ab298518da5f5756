/-
Model of ntfs_parser:331-727 (`--log`): the report on a log file.  The result of `processLog` is the sections that are written, in
order, and the exception that ends the program, if any (the sections written before it remain in the file).
-/
import Verif.Model.Scripts.Move
import Verif.Model.Scripts.Tables
import Verif.Model.LogFile.Replay
namespace Verif.Scripts
open Verif.MFT Verif.Attributes
open Verif.LogFile (redoOperation undoOperation redoData undoData targetAttribute targetBlockSize mftTargetNumber offsetInTarget lcnsForPage
  findFileReference findName nonresidentUpdates)

/-! ### Operations -/

/-- dfir_ntfs/LogFile.py:37-74 and 88-124 `NTFSOperations`: the name of the operation with the number of its place in this list. -/
def operationNames : List String := [
  "Noop", "CompensationLogRecord", "InitializeFileRecordSegment", "DeallocateFileRecordSegment", "WriteEndOfFileRecordSegment",
  "CreateAttribute", "DeleteAttribute", "UpdateResidentValue", "UpdateNonresidentValue", "UpdateMappingPairs", "DeleteDirtyClusters",
  "SetNewAttributeSizes", "AddIndexEntryRoot", "DeleteIndexEntryRoot", "AddIndexEntryAllocation", "DeleteIndexEntryAllocation",
  "WriteEndOfIndexBuffer", "SetIndexEntryVcnRoot", "SetIndexEntryVcnAllocation", "UpdateFileNameRoot", "UpdateFileNameAllocation",
  "SetBitsInNonresidentBitMap", "ClearBitsInNonresidentBitMap", "HotFix", "EndTopLevelAction", "PrepareTransaction", "CommitTransaction",
  "ForgetTransaction", "OpenNonresidentAttribute", "OpenAttributeTableDump", "AttributeNamesDump", "DirtyPageTableDump",
  "TransactionTableDump", "UpdateRecordDataRoot", "UpdateRecordDataAllocation", "UpdateRelativeDataIndex", "UpdateRelativeDataAllocation",
  "ZeroEndOfFileRecord"]

/-- dfir_ntfs/LogFile.py:126-132 `ResolveNTFSOperation`. -/
def resolveOperation (code : Nat) : Str :=
  match operationNames[code]? with
  | some name => Str.ofString name
  | none => USN.pyHex code

/-! ### Restart areas -/

/-- ntfs_parser:335-347 `process_restart_area`, with dfir_ntfs/LogFile.py:1462-1465 `get_minor_version` and 1492-1510 (the lengths of the
tables). -/
def restartAreaLines (buf : Bytes) (lsn : Nat) : List Str :=
  [Str.ofString "LSN: " ++ decimal lsn,
   Str.ofString "Restart area, version: " ++ decimal (LogFile.areaMajorVersion buf) ++ Str.ofString "." ++ decimal (u32 buf 4),
   Str.ofString " Start of checkpoint LSN: " ++ decimal (LogFile.startOfCheckpointLsn buf),
   Str.ofString " Tables (LSN and length):",
   Str.ofString " * Open attribute table: " ++ decimal (LogFile.openAttributeTableLsn buf) ++ Str.ofString " " ++ decimal (u32 buf 48),
   Str.ofString " * Attribute names: " ++ decimal (LogFile.attributeNamesLsn buf) ++ Str.ofString " " ++ decimal (u32 buf 52),
   Str.ofString " * Dirty page table: " ++ decimal (LogFile.dirtyPageTableLsn buf) ++ Str.ofString " " ++ decimal (u32 buf 56),
   Str.ofString " * Transaction table: " ++ decimal (LogFile.transactionTableLsn buf) ++ Str.ofString " " ++ decimal (u32 buf 60)]

/-! ### The target of a log record -/

/-- ntfs_parser:364-409: what a log record applies to. -/
inductive Target where
  /-- A file record segment (364-380). -/
  | number (n : Int)
  /-- An attribute of a file (382-407). -/
  | reference (r : Nat) (name : Option Str)
  /-- 409 -/
  | unknown
  deriving DecidableEq

/-- dfir_ntfs/LogFile.py:1725-1746 `calculate_mft_target_reference_and_name` (the table is always set by `parse_ntfs_records`). -/
def targetReference (oatVersion : Nat) (i : LogFile.Item) (buf : Bytes) : Option (Nat × Option Str) :=
  if redoOperation buf ∈ nonresidentUpdates ∨ undoOperation buf ∈ nonresidentUpdates then
    match i.oat.find? (·.1 == targetAttribute buf) with                                      -- 1736-1737
    | some e => some (e.2.1, some e.2.2)
    | none =>
      match i.oatDump, i.anDump with                                                         -- 1740-1746
      | some oat, some an =>
        match findFileReference oatVersion oat (targetAttribute buf) with
        | .error _ => none
        | .ok r => some (r, findName an (targetAttribute buf))
      | _, _ => none
  else none

/-- ntfs_parser:364, 382-383 and 408-409. -/
def target (config : LogFile.Config) (i : LogFile.Item) (buf : Bytes) : Target :=
  match mftTargetNumber buf config.clusterSize with
  | some n => .number n
  | none =>
    match targetReference config.oatVersion i buf with
    | some t => .reference t.1 t.2
    | none => .unknown

/-- ntfs_parser:368-377.  A negative number gives a negative offset, and `seek` raises an exception for it: ValueError for an object in
memory, OSError for a file on disk. -/
def numberPath (p : Parser) (n : Int) : Except Exc (Option Str) :=
  if n < 0 then .error .ValueError else lookupPath p n.toNat none

/-- ntfs_parser:393-404 (also 481-492, 550-561 and 632-643): the path of the file that a reference is for. -/
def referencePath (p : Parser) (r : Nat) : Except Exc (Option Str) :=
  lookupPath p (decodeFileRecordSegmentReference r).1 (some (decodeFileRecordSegmentReference r).2)

/-- A line that is only written when there is a path (ntfs_parser:379-380, 406-407, 494-495, 563-564 and 645-646). -/
def pathLine (label : String) : Option Str → List Str
  | some path => [Str.ofString label ++ path]
  | none => []

/-- ntfs_parser:388-389: the name of the target attribute, which line 673 compares with `$J`. -/
def shownName (name : Option Str) : Str := name.getD (Str.ofString "-")

/-- ntfs_parser:364-409: the lines about the target. -/
def targetLines (p : Parser) (buf : Bytes) : Target → Except Exc (List Str)
  | .number n => do
    let path ← numberPath p n
    return (Str.ofString "Target (file number): " ++ signedDecimal n) ::
      pathLine "Target path (from $MFT, likely wrong if the file was deleted later): " path
  | .reference r name => do
    let path ← referencePath p r
    return (Str.ofString "Target (file reference number): " ++ decimal r) ::
      (Str.ofString "Target (attribute name): " ++ shownName name) :: pathLine "Target path (from $MFT): " path
  | .unknown => return [Str.ofString "Unknown target, target attribute: " ++ decimal (targetAttribute buf)]

/-- ntfs_parser:411-415. -/
def offsetLine : Option Int → Str
  | some o => Str.ofString "Offset in target: " ++ signedDecimal o
  | none => Str.ofString "Unknown offset in target"

/-! ### Attributes in the data of a log record -/

/-- The lines with four timestamps (ntfs_parser:463-466 and others). -/
def timeLines (m a c e : Option Nat) : List Str :=
  [Str.ofString " * M timestamp: " ++ filetimeText m, Str.ofString " * A timestamp: " ++ filetimeText a,
   Str.ofString " * C timestamp: " ++ filetimeText c, Str.ofString " * E timestamp: " ++ filetimeText e]

/-- ntfs_parser:462-468 (also 529-535). -/
def standardInformationLines (v : Bytes) : Except Exc (List Str) := do
  let m ← siMtime v
  let a ← siAtime v
  let c ← siCtime v
  let e ← siEtime v
  let f ← siFileAttributes v
  return Str.ofString "$STANDARD_INFORMATION:" :: (timeLines m a c e ++ [Str.ofString " * File attributes: " ++ resolveFileAttributes f, []])

/-- ntfs_parser:471-497 (also 540-566 and, with another first line, 619-648).  (Line 626 handles exceptions that are never raised there:
DecodeFiletime gives `None` for what is out of range, and the lengths are checked by `struct`, which raises another exception.) -/
def fileNameLines (p : Parser) (title : String) (v : Bytes) : Except Exc (List Str) := do
  let m ← diMtime (fileNameInformation v)
  let a ← diAtime (fileNameInformation v)
  let c ← diCtime (fileNameInformation v)
  let e ← diEtime (fileNameInformation v)
  let name ← fileNameName v
  let parent ← fileNameParent v
  let path ← referencePath p parent
  return Str.ofString title :: (timeLines m a c e ++ (Str.ofString " * File name: " ++ name) ::
    (Str.ofString " * Parent (file reference number): " ++ decimal parent) :: (pathLine " * Parent path (from $MFT): " path ++ [[]]))

/-- ntfs_parser:500-503 (also 571-574). -/
def objectIdLines (v : Bytes) : List Str :=
  [Str.ofString "$OBJECT_ID:",
   Str.ofString " * GUID: " ++ (match objectId v with | some guid => guidText guid | none => Str.ofString "None"),
   Str.ofString " * Timestamp: " ++ guidTimeText (objectIdTimestamp v), []]

/-- The lines of an `Except` as a generator (ntfs_parser:460 and others): an exception ends the program, so the lines before it are not written. -/
def linesOr (x : Except Exc (List Str)) : Gen Str := andThen x fun l => ⟨l, none⟩

/-- ntfs_parser:526-574: the lines for a value of an attribute type. -/
def valueLines (p : Parser) (typeCode : Nat) (v : Bytes) : Except Exc (List Str) :=
  if typeCode = 0x10 then standardInformationLines v
  else if typeCode = 0x30 then fileNameLines p "$FILE_NAME:" v
  else if typeCode = 0x40 then return objectIdLines v
  else return []

/-- ntfs_parser:456-503: the body of the loop over the attributes of a file record segment.  The value of a resident `$INDEX_ALLOCATION`
cannot be decoded (AttributeError). -/
def attributeLines (p : Parser) : AttributeRecord → Gen Str
  | .nonresident .. => .done                                                                  -- 457-458
  | .resident t _ v => if t = 0xA0 then .fail .AttributeError else linesOr (valueLines p t v)

/-- ntfs_parser:444-446 (also 577-579). -/
def segmentSize (buf : Bytes) : Nat := if targetBlockSize buf * 512 = 0 then 1024 else targetBlockSize buf * 512

/-- ntfs_parser:505-506: `except MFT.MasterFileTableException: pass` around a loop; the lines that were added remain. -/
def catchMft (g : Gen Str) : Gen Str :=
  match g.err with
  | some e => if isMftExc e then ⟨g.items, none⟩ else g
  | none => g

/-- ntfs_parser:443-506 (`InitializeFileRecordSegment`). -/
def initializeLines (p : Parser) (buf redo : Bytes) : Gen Str :=
  if redoOperation buf = 0x02 then
    match FileRecordSegment.init (redo ++ zeros (segmentSize buf - redo.length)) false with     -- 448-451
    | .error e => if isMftExc e then .done else .fail e                                          -- 452-453
    | .ok f => catchMft (forGen (attributeLines p) ⟨f.attributes.items.map (·.attr), f.attributes.err⟩)
  else .done

/-- ntfs_parser:509-517: the data with the attribute (`CreateAttribute`, `WriteEndOfFileRecordSegment`). -/
def createdAttribute (buf redo undo : Bytes) : Bytes :=
  if redoOperation buf = 0x05 then redo
  else if undoOperation buf = 0x05 then undo
  else if redo.length > undo.length then redo else undo

/-- ntfs_parser:508-574, with dfir_ntfs/MFT.py:98-108 (`UnpackAttributeRecordPartialHeader`, `UnpackAttributeRecordRemainingHeaderResident`). -/
def createLines (p : Parser) (buf redo undo : Bytes) : Gen Str :=
  if redoOperation buf = 0x05 ∨ undoOperation buf = 0x05 ∨ redoOperation buf = 0x04 ∨ undoOperation buf = 0x04 then
    let attr := createdAttribute buf redo undo
    if attr.length ≥ 24 then                                                                     -- 519
      if u16 attr 20 > 0 ∧ u16 attr 20 % 8 = 0 ∧ u32 attr 16 > 0 then                            -- 523
        let v := slice attr (u16 attr 20) (u16 attr 20 + u32 attr 16)                            -- 524
        if v.length = u32 attr 16 then linesOr (valueLines p (u32 attr 0) v) else .done
      else .done
    else .done
  else .done

/-- ntfs_parser:587-596 (also 598-607): the possible update in one of the two buffers. -/
def partialLines (title : String) (data : Bytes) (offset : Nat) : List Str :=
  if data.length ≥ 8 then
    let si := PartialInformation.init data offset
    Str.ofString title :: (timeLines si.mtime si.atime si.ctime si.etime ++ [[]])
  else []

/-- ntfs_parser:576-607 (`UpdateResidentValue`). -/
def updateLines (buf redo undo : Bytes) : Option Int → List Str
  | none => []
  | some o =>
    if redoOperation buf = 0x07 ∨ undoOperation buf = 0x07 then
      let size := segmentSize buf
      if size = 1024 ∨ size = 4096 then
        let si : Int := if size = 4096 then 72 + 24 else 56 + 24                                 -- 582-584
        if o ≥ si ∧ o ≤ si + 32 then
          partialLines "Possible update to $STANDARD_INFORMATION (redo data):" redo (o - si).toNat ++
          partialLines "Possible update to $STANDARD_INFORMATION (undo data):" undo (o - si).toNat
        else []
      else []
    else []

/-- ntfs_parser:609-610 (`AddIndexEntryRoot`, `AddIndexEntryAllocation`, `WriteEndOfIndexBuffer`). -/
def addsIndexEntry (operation : Nat) : Bool := operation == 0x0C || operation == 0x0E || operation == 0x10

/-- ntfs_parser:609-648. -/
def indexLines (p : Parser) (buf redo undo : Bytes) : Gen Str :=
  if addsIndexEntry (redoOperation buf) || addsIndexEntry (undoOperation buf) then
    let entry : IndexEntry := ⟨0, if addsIndexEntry (redoOperation buf) then redo else undo⟩     -- 610-613
    andThen entry.attribute fun
      | some v => if v.length > 66 then linesOr (fileNameLines p "$FILE_NAME in index:" v) else .done
      | none => .done
  else .done

/-- ntfs_parser:650-651 (`UpdateFileNameRoot`, `UpdateFileNameAllocation`). -/
def updatesFileName (operation : Nat) : Bool := operation == 0x13 || operation == 0x14

/-- ntfs_parser:652-660 (also 663-671). -/
def duplicatedLines (title : String) (data : Bytes) : Except Exc (List Str) :=
  if data.length = 56 then do
    let m ← diMtime data
    let a ← diAtime data
    let c ← diCtime data
    let e ← diEtime data
    return Str.ofString title :: (timeLines m a c e ++ [[]])
  else return []

/-- ntfs_parser:650-671. -/
def fileNameUpdateLines (buf redo undo : Bytes) : Gen Str :=
  (if updatesFileName (redoOperation buf) then linesOr (duplicatedLines "Update to duplicated information (redo data):" redo) else .done).append
  (if updatesFileName (undoOperation buf) then linesOr (duplicatedLines "Update to duplicated information (undo data):" undo) else .done)

/-- ntfs_parser:683-704: the lines for one buffer with a record of the journal. -/
def usnLines (data : Bytes) : Except Exc (List Str) :=
  match USN.getUsnRecord data with                                                                -- 685
  | .error e => if e = .NotImplementedError ∨ e = .ValueError then return [] else .error e        -- 686-687
  | .ok r => do
    let usn ← r.usn
    let source ← r.sourceInfo
    let reason ← r.reason
    let reference ← r.fileReference
    let parent ← r.parentReference
    let more ← match r with                                                                       -- 700-702
      | .v2or3 _ _ => do
        let t ← r.timestamp
        let name ← r.fileName
        pure [Str.ofString " Timestamp: " ++ filetimeText t, Str.ofString " File name: " ++ name]
      | .v4 _ => pure []
    return (match r with | .v4 _ => Str.ofString "USN record (version 4):" | .v2or3 _ _ => Str.ofString "USN record:") ::
      (Str.ofString " Number: " ++ decimal usn) :: (Str.ofString " Source: " ++ USN.resolveSourceCodes source) ::
      (Str.ofString " Reason: " ++ USN.resolveReasonCodes reason) :: (Str.ofString " File reference number: " ++ decimal reference) ::
      (Str.ofString " Parent file reference number: " ++ decimal parent) :: (more ++ [[]])

/-- ntfs_parser:673-704 (`UpdateNonresidentValue` of `$J`). -/
def journalLines (buf redo undo : Bytes) : Target → Gen Str
  | .reference _ name =>
    if shownName name = Str.ofString "$J" then
      (if redoOperation buf = 0x08 then linesOr (usnLines redo) else .done).append
      (if undoOperation buf = 0x08 then linesOr (usnLines undo) else .done)
    else .done
  | _ => .done

/-! ### Sections -/

/-- ntfs_parser:360-362. -/
def headLines (buf : Bytes) (lsn transactionId : Nat) : List Str :=
  [Str.ofString "LSN: " ++ decimal lsn, Str.ofString "Transaction ID: " ++ decimal transactionId,
   Str.ofString "Log record, redo operation: " ++ resolveOperation (redoOperation buf) ++ Str.ofString ", undo operation: " ++
     resolveOperation (undoOperation buf)]

/-- ntfs_parser:425-434: the lines with the data. -/
def dataLines (lcns : List Int) (redo undo : Bytes) : List Str :=
  (if lcns.length > 0 then [Str.ofString "LCN(s): " ++ pyJoin (Str.ofString " ") (lcns.map signedDecimal)] else []) ++
  [Str.ofString "Redo data:", hexdump redo, [], Str.ofString "Undo data:", hexdump undo, []]

/-- ntfs_parser:349-706 `process_log_record`: the lines, and what is added to the list of deleted files (436-441).  When the numbers of
clusters are truncated, the function returns early (421-423). -/
def recordLines (p : Parser) (config : LogFile.Config) (i : LogFile.Item) (buf : Bytes) (lsn transactionId : Nat) : Except Exc (List Str × Option Str) := do
  let redo ← redoData buf
  let undo ← undoData buf
  let t := target config i buf
  let lines ← targetLines p buf t
  let o := offsetInTarget buf config.clusterSize
  let lines := headLines buf lsn transactionId ++ (lines ++ [offsetLine o])
  match lcnsForPage buf with
  | .error _ => return (lines ++ [Str.ofString "Warning: truncated page"], none)
  | .ok lcns =>
    let more := (initializeLines p buf redo).append ((createLines p buf redo undo).append
      ((⟨updateLines buf redo undo o, none⟩ : Gen Str).append ((indexLines p buf redo undo).append
      ((fileNameUpdateLines buf redo undo).append (journalLines buf redo undo t)))))
    match more.err with
    | some e => .error e
    | none =>
      return (lines ++ (dataLines lcns redo undo ++ more.items),
        if redoOperation buf = 0x03 then some (match mftTargetNumber buf config.clusterSize with
          | some n => signedDecimal n
          | none => Str.ofString "unknown") else none)

/-- ntfs_parser:715-718. -/
def itemLines (p : Parser) (config : LogFile.Config) (i : LogFile.Item) : Except Exc (List Str × Option Str) :=
  match i.decoded with
  | .restartArea buf lsn => return (restartAreaLines buf lsn, none)
  | .logRecord buf lsn transactionId => recordLines p config i buf lsn transactionId

/-- ntfs_parser:712-727: the loop over the items, and the list of deleted files after it. -/
def reportLoop (p : Parser) (config : LogFile.Config) (err : Option Exc) : List LogFile.Item → List Str → Gen Str
  | [], deleted =>
    match err with
    | some e => .fail e
    | none =>
      if deleted.length > 0 then                                                                  -- 723-727
        .cons (Str.ofString "Files and directories with these MFT numbers were deleted (in this order):\n" ++
          pyJoin (Str.ofString " ") deleted ++ Str.ofString "\n\n---\n\n") .done
      else .done
  | i :: rest, deleted =>
    match itemLines p config i with
    | .error e => .fail e
    | .ok (lines, d) => .cons (section_ lines) (reportLoop p config err rest (deleted ++ d.toList))

/-- dfir_ntfs/LogFile.py:717-718: the values before `collect_lsns`. -/
def initialConfig : LogFile.Config := ⟨4096, none, 1⟩

/-- dfir_ntfs/LogFile.py:1334: what `collect_lsns` leaves in the parser. -/
def configAfter (log : LogFile.Parser) (file : Bytes) (order : List Nat → List Nat) (fuel : Nat) : LogFile.Config :=
  match log.collectLsns file order fuel initialConfig with
  | some (.ok (config, _)) => config
  | _ => initialConfig

/-- ntfs_parser:331-727 `process_log`, for the log file and the file table.  `order` is the order in which a Python set is iterated, and
`fuel` bounds loops over pages (see `LogFile.Parser.parseRecords`). -/
def processLog (log mft : Bytes) (order : List Nat → List Nat) (fuel : Nat) : Option (Gen Str) :=
  match LogFile.Parser.init log with                                                              -- 709
  | .error e => some (.fail e)
  | .ok l =>
    match Parser.init mft with                                                                    -- 710
    | .error e => some (.fail e)
    | .ok p =>
      match l.parseRecords ⟨log, none⟩ order fuel initialConfig true with
      | none => none
      | some (g, _) => some (reportLoop p (configAfter l (l.repair ⟨log, none⟩).1.current order fuel) g.err g.items [])

end Verif.Scripts
