/-
Model of `ntfs_parser --indx`: the table of directory indexes and of the slack space in them.
-/
import Verif.Model.Scripts.Tables
namespace Verif.Scripts
open Verif.MFT Verif.Attributes

/-- The bytes of a fragmented file, read with one call (dfir_ntfs/MFT.py:1455-1484).  The code reads parts of the file table
(dfir_ntfs/MFT.py:938-962); when all of it can be read, these are the parts of what is read at once (C99_parts). -/
def contents (f : FragmentedFile) : Except Exc Bytes := f.readAt 0 f.fileSize

/-- ntfs_parser:754-758: the data runs and the size of an index allocation of file names; `none` for another attribute. -/
def indexStream : MergedAttribute → Option (List Run × Int)
  | .stored (.resident _ _ _) => none                                                         -- 754
  | .stored (.nonresident t n _ _ _ size runs) =>
    if n.map utf16Decode = some (Str.ofString "$I30") ∧ t = 0xA0 then some (runs, size) else none   -- 757
  | .merged t n _ size runs => if n = some (Str.ofString "$I30") ∧ t = 0xA0 then some (runs, size) else none

/-- ntfs_parser:769-789 (also 818-838): the path of the directory of a file name in the index of the directory `r`, whose paths are `paths`.
For a file name with another parent, the record of `r` is looked up again (771). -/
def indexDirectory (p : Parser) (r : FileRecord) (paths : List (Str × Bytes)) (v : Bytes) : Except Exc (Option Str) :=
  match fileNameParent v with                                                                 -- 768
  | .error e => .error e
  | .ok parent =>
    match r.base.masterFileTableNumber with
    | none => .error .TypeError
    | some number =>
      if parent ≠ encodeFileRecordSegmentReference number r.base.sequenceNumber then lookupPath p number (some r.base.sequenceNumber)
      else .ok (paths.head?.map (·.1))

/-- ntfs_parser:791-809 (also 840-858): a row; `reference` is the second cell. -/
def indexNameRow (p : Parser) (r : FileRecord) (paths : List (Str × Bytes)) (source : String) (reference : Except Exc Cell) (v : Bytes) : Gen Row :=
  andThen (indexDirectory p r paths v) fun directory =>
  andThen (fileNameName v) fun name =>
  andThen reference fun ref =>
  andThen (fileNameIsDirectory v) fun dir =>
  andThen (fileNameTimes v) fun fn =>
  andThen (diFileSize (fileNameInformation v)) fun size =>
    .cons ([text source, ref, yesNo dir, .str (pathIn directory name)] ++ fn ++ [.int size]) .done

/-- ntfs_parser:761-809: the row of an entry of an index buffer, if it has one. -/
def indexEntryRows (p : Parser) (r : FileRecord) (paths : List (Str × Bytes)) (e : IndexEntry) : Gen Row :=
  andThen e.attribute fun a =>
    match a with
    | none => .done
    | some v =>
      if v.length ≤ 66 then .done                                                             -- 763
      else indexNameRow p r paths "Index record" (e.fileReference.map fun n => .int n) v

/-- ntfs_parser:813-858: the row of a file name in the slack space.  (`carve()` yields no partial names.) -/
def indexSlackRows (p : Parser) (r : FileRecord) (paths : List (Str × Bytes)) : Carved → Gen Row
  | .fileName v => indexNameRow p r paths "Index slack" (.ok (text "?")) v
  | .partialName _ => .done

/-- dfir_ntfs/Attributes.py:884-904, the constructor of `IndexAllocation`: `index_buffer_size`, for a fragmented file. -/
def allocationBufferSize (f : FragmentedFile) : Except Exc (Option Nat) :=
  match f.readAt 4 4 with                                                                     -- 888-889
  | .error e => .error e
  | .ok raw =>
    if raw.length ≠ 4 then .ok none                                                           -- 891
    else
      let usaSize := u16 raw 2                                                                -- 892
      if usaSize < 3 then .ok none                                                            -- 893
      else
        let size := (usaSize - 1) * 512                                                       -- 894
        if ¬ (size > 0 ∧ size % 512 = 0 ∧ size ≤ 119808) then .ok none                        -- 896
        else
          match f.readAt 0 size with                                                          -- 897-898
          | .error e => .error e
          | .ok buf =>
            if buf.length ≠ size then .ok none                                                -- 900
            else
              match verifyAndUnprotectIndexSectors buf with
              | .error e => .error e
              | .ok none => .ok none                                                          -- 902
              | .ok (some _) => .ok (some size)                                               -- 904

/-- dfir_ntfs/Attributes.py:910-922, the loop of `index_buffers`, for a fragmented file (`size` is not zero; nothing is read at the end of the
file or after it, so that the second check is not reached). -/
def allocationBuffersLoop (f : FragmentedFile) (size i : Nat) : Gen Bytes :=
  match f.readAt (i * size) size with                                                         -- 912-913
  | .error e => .fail e
  | .ok raw =>
    if raw.length ≠ size ∨ size = 0 then .done                                                -- 915
    else if f.fileSize ≤ i * size then .done
    else
      match verifyAndUnprotectIndexSectors raw with                                           -- 918
      | .error e => .fail e
      | .ok none => allocationBuffersLoop f size (i + 1)
      | .ok (some b) => .cons b (allocationBuffersLoop f size (i + 1))                        -- 919-922
termination_by f.fileSize - i * size
decreasing_by
  all_goals
    rw [Nat.add_mul]
    omega

/-- dfir_ntfs/Attributes.py:906-922 `IndexAllocation.index_buffers`, after the constructor, for a fragmented file. -/
def allocationBuffers (f : FragmentedFile) : Gen Bytes :=
  match allocationBufferSize f with
  | .error e => .fail e
  | .ok none => .done
  | .ok (some size) => allocationBuffersLoop f size 0

/-- dfir_ntfs/Attributes.py:924-936 `IndexAllocation.get_slack`, for a fragmented file.  (When a buffer fails, the exception of its slack space
comes before that of a later buffer.) -/
def allocationSlack (f : FragmentedFile) : Except Exc (List Bytes) :=
  match slackOfBuffers (allocationBuffers f).items with
  | .error e => .error e
  | .ok l =>
    match (allocationBuffers f).err with
    | some e => .error e
    | none => .ok l

/-- ntfs_parser:758-858: the rows of an index allocation. -/
def streamRows (p : Parser) (r : FileRecord) (paths : List (Str × Bytes)) (f : FragmentedFile) : Gen Row :=
  (forGen (fun b => forGen (indexEntryRows p r paths) (indexBufferEntries b)) (allocationBuffers f)).append      -- 760-761
    (andThen (allocationSlack f) fun slack => forEach (indexSlackRows p r paths) (carve slack false))              -- 811-813

/-- ntfs_parser:753-858: the rows for an attribute. -/
def indexAttributeRows (volume : Bytes) (volumeOffset clusterSize : Nat) (p : Parser) (r : FileRecord) (paths : List (Str × Bytes))
    (m : MergedAttribute) : Gen Row :=
  match indexStream m with
  | none => .done
  | some (runs, size) => streamRows p r paths ⟨volume, volumeOffset, clusterSize, runs, size.toNat⟩

/-- ntfs_parser:739-858: the rows for one file record. -/
def indexRecordRows (volume : Bytes) (volumeOffset clusterSize : Nat) (p : Parser) (r : FileRecord) : Gen Row :=
  match fullPaths p r with                                                                    -- 742
  | .error e => if isMftExc e then .done else .fail e                                         -- 743-744
  | .ok paths =>
    forGen (indexAttributeRows volume volumeOffset clusterSize p r paths) r.mergedAttributes    -- 753

/-- ntfs_parser:735: the header of the table. -/
def indexHeader : Row := ["Source", "MFT reference number", "Is directory", "Path", "$FN M timestamp", "$FN A timestamp", "$FN C timestamp",
  "$FN E timestamp", "File size"].map text

/-- ntfs_parser:729-860 `process_indx`. -/
def processIndx (volume : Bytes) (volumeOffset : Nat) : Gen Row :=
  andThen (openVolume volume volumeOffset) fun f =>                                           -- 732
  andThen (contents f) fun mft =>
  andThen (Parser.init mft) fun p =>                                                          -- 733
    .cons indexHeader (forGen (indexRecordRows volume volumeOffset f.clusterSize p) p.fileRecords)

end Verif.Scripts
