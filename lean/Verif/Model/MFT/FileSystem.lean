/-
Model of dfir_ntfs/MFT.py:565-590 (values of nonresident attributes), 758-810 (merged attributes) and
1494-1584 (`FileSystemParser`: the `$MFT` file of a volume).
-/
import Verif.Model.MFT.Parser
import Verif.Model.MFT.FragmentedFile
import Verif.Model.BootSector
namespace Verif.MFT
open Verif.Attributes

/-! ### Merged attributes -/

/-- What `attributes(True)` yields (dfir_ntfs/MFT.py:784-810): an attribute record as it is stored, or a
merged nonresident one (808-809), which has no mapping pairs. -/
inductive MergedAttribute where
  | stored (attr : AttributeRecord)
  | merged (typeCode : Nat) (name : Option Str) (highestVcn : Nat) (fileSize : Int) (dataRuns : List Run)
  deriving DecidableEq, Repr

/-- dfir_ntfs/MFT.py:525-548: the fields of a nonresident attribute record that merging uses. -/
structure NonresidentFields where
  typeCode : Nat
  name : Option Str
  lowestVcn : Nat
  highestVcn : Nat
  fileSize : Int
  mappingPairs : Bytes
  deriving DecidableEq, Repr

/-- dfir_ntfs/MFT.py:549-558: the fields of an attribute record, if it is nonresident. -/
def AttributeRecord.nonresidentFields : AttributeRecord → Option NonresidentFields
  | .resident _ _ _ => none
  | .nonresident t n pairs lo hi fs _ => some ⟨t, n.map utf16Decode, lo, hi, fs, pairs⟩

/-- dfir_ntfs/MFT.py:802-806: decode the mapping pairs of the extensions and append the runs. -/
def mergeRuns : List NonresidentFields → List Run → Except Exc (List Run)
  | [], runs => .ok runs
  | e :: rest, runs =>
    match decodeMappingPairs e.mappingPairs with
    | .error x => .error x
    | .ok rs => mergeRuns rest (runs ++ rs)

/-- dfir_ntfs/MFT.py:784-810: what is yielded for one attribute record with the lowest VCN 0;
`extensions` are all the records with another lowest VCN. -/
def mergeOne (extensions : List NonresidentFields) (a : AttributeRecord) (base : NonresidentFields) :
    Except Exc MergedAttribute :=
  let exts := sortBy (fun e => (e.lowestVcn : Int))
    (extensions.filter fun e => e.typeCode = base.typeCode ∧ e.name = base.name)          -- 789-794
  match exts.getLast? with
  | none => .ok (.stored a)                                                               -- 796-797
  | some last =>
    match decodeMappingPairs base.mappingPairs with                                       -- 800
    | .error e => .error e
    | .ok runs =>
      match mergeRuns exts runs with
      | .error e => .error e
      | .ok merged => .ok (.merged base.typeCode base.name last.highestVcn base.fileSize merged)  -- 799, 804-806

/-- dfir_ntfs/MFT.py:784-810: the loop over the records with the lowest VCN 0. -/
def mergeLoop (extensions : List NonresidentFields) : List AttributeRecord → Gen MergedAttribute
  | [] => .done
  | a :: rest =>
    match a.nonresidentFields with
    | none => mergeLoop extensions rest
    | some base =>
      if base.lowestVcn = 0 then                                                          -- 779
        match mergeOne extensions a base with
        | .error e => .fail e
        | .ok m => .cons m (mergeLoop extensions rest)
      else mergeLoop extensions rest

/-- dfir_ntfs/MFT.py:758-810 `attributes(True)`: the resident attributes first. -/
def FileRecord.mergedAttributes (fr : FileRecord) : Gen MergedAttribute :=
  let resident : Gen MergedAttribute :=
    ⟨(fr.attributes.items.filter fun a => a.nonresidentFields.isNone).map .stored, fr.attributes.err⟩  -- 769-773
  resident.append
    (mergeLoop ((fr.attributes.items.filterMap (·.nonresidentFields)).filter fun e => e.lowestVcn ≠ 0)
      fr.attributes.items)                                                                -- 775-782

/-! ### Values of nonresident attributes -/

/-- dfir_ntfs/MFT.py:568-582: read the runs of an attribute list one by one (the lengths of decoded runs
are positive).  A seek to a negative offset raises `ValueError`. -/
def readRuns (volume : Bytes) (volumeOffset clusterSize : Nat) : List Run → Bytes → Except Exc Bytes
  | [], value => .ok value
  | (none, _) :: _, _ => .error .MasterFileTableException                                 -- 572-573
  | (some lcn, len) :: rest, value =>
    let start : Int := volumeOffset + lcn * clusterSize
    if start < 0 then .error .ValueError                                                  -- 575
    else
      match seekRead volume start.toNat (len.toNat * clusterSize) with                    -- 576
      | .error e => .error e
      | .ok data =>
        if data.length ≠ len.toNat * clusterSize then .error .MasterFileTableException    -- 578-579
        else readRuns volume volumeOffset clusterSize rest (value ++ data)                -- 581

/-- dfir_ntfs/MFT.py:565-584 `AttributeRecordNonresident.value_decoded` for an attribute list: its bytes
(the file size of a nonresident attribute record is not negative, line 436). -/
def nonresidentListValue (volume : Bytes) (volumeOffset clusterSize : Nat) (runs : List Run) (fileSize : Int) :
    Except Exc Bytes :=
  (readRuns volume volumeOffset clusterSize runs []).map (·.take fileSize.toNat)          -- 583-584

/-! ### The `$MFT` file of a volume -/

/-- dfir_ntfs/MFT.py:998-1003 with a `FileSystemParser` as the file object: `seek` and `read`. -/
def FragmentedFile.readAt (f : FragmentedFile) (offset n : Nat) : Except Exc Bytes := (f.read offset (some n)).1

/-- dfir_ntfs/MFT.py:995-1005 `get_file_record_segment_by_number` on a `FileSystemParser`. -/
def FragmentedFile.segment (f : FragmentedFile) (size n : Nat) : Except Exc FileRecordSegment :=
  if n * size > f.fileSize then .error .MasterFileTableException                          -- 999-1000
  else
    match f.readAt (n * size) size with
    | .error e => .error e
    | .ok buf => FileRecordSegment.init buf true (some n)

/-- dfir_ntfs/MFT.py:936-962 `MasterFileTableParser(self, False)` on a `FileSystemParser`: the size of a
file record segment. -/
def FragmentedFile.segmentSize (f : FragmentedFile) : Except Exc Nat :=
  match f.readAt 0 4 with
  | .error e => .error e
  | .ok signature =>
    if signature ≠ multiSectorHeaderSignatureGood then .error .FileRecordSegmentSignatureException  -- 945
    else
      match f.readAt 28 4 with
      | .error e => .error e
      | .ok raw =>
        if raw.length ≠ 4 then .error .FileRecordSegmentException                         -- 950
        else if leNat raw ∉ fileRecordSegmentSizesSupported then .error .FileRecordSegmentException  -- 954
        else
          match f.segment (leNat raw) 3 with                                              -- 970
          | .error e => .error e
          | .ok volumeSegment =>
            match checkVersionLoop volumeSegment.attributesGen.err volumeSegment.attributesGen.items with
            | .error e => .error e
            | .ok () => .ok (leNat raw)

/-- dfir_ntfs/MFT.py:1525-1533: the value of the first attribute list, if there is one. -/
def findAttributeList (volume : Bytes) (volumeOffset clusterSize : Nat) (err : Option Exc) :
    List AttributeRecord → Except Exc (Option Bytes)
  | [] =>
    match err with
    | some e => .error e
    | none => .ok none
  | a :: rest =>
    if a.typeCode = 0x20 then
      match a with
      | .nonresident _ _ _ _ _ fs runs => (nonresidentListValue volume volumeOffset clusterSize runs fs).map some
      | .resident _ _ value => .ok (some value)
    else findAttributeList volume volumeOffset clusterSize err rest

/-- dfir_ntfs/MFT.py:1556-1563: the entries for the unnamed `$DATA` attribute, sorted. -/
def dataEntries (value : Bytes) : List AttributeListEntry :=
  sortBy (fun e => (e.lowestVcn : Int))
    ((attributeListEntries value).filter fun e => e.typeCode = attrTypeData ∧ e.name = none)

/-- dfir_ntfs/MFT.py:1571-1581: load the segments of the entries one by one, each through the data runs
known so far.  (Line 1581 cannot set the data runs to `None`, as the base segment has data runs.) -/
def extendRuns (first : FileRecordSegment) : List AttributeListEntry → List FileRecordSegment → FragmentedFile →
    Except Exc FragmentedFile
  | [], _, f => .ok f
  | e :: rest, children, f =>
    match f.segmentSize with                                                              -- 1575
    | .error x => .error x
    | .ok size =>
      match f.segment size (decodeFileRecordSegmentReference e.segmentReference).1 with   -- 1576
      | .error x => .error x
      | .ok child =>
        match (FileRecord.mk first (children ++ [child])).getDataRuns with                -- 1578-1581
        | .error x => .error x
        | .ok none => .error .TypeError
        | .ok (some runs) => extendRuns first rest (children ++ [child]) { f with dataRuns := runs }

/-- dfir_ntfs/MFT.py:1551-1581: the rest of the constructor when there is an attribute list. -/
def extendByList (first : FileRecordSegment) (f : FragmentedFile) (value : Bytes) : Except Exc FragmentedFile :=
  match dataEntries value with
  | [] => .error .MasterFileTableException                                                -- 1565-1566
  | e :: rest =>
    if (decodeFileRecordSegmentReference e.segmentReference).1 ≠ 0 then .error .MasterFileTableException  -- 1568-1569
    else extendRuns first rest [] f

/-- dfir_ntfs/MFT.py:1503-1584 `FileSystemParser.__init__`: the object is the `$MFT` file as a fragmented
file (the boot sector is read again from the volume where it is needed). -/
def openVolume (volume : Bytes) (volumeOffset : Nat) : Except Exc FragmentedFile := do
  let bootBuf ← seekRead volume volumeOffset 512                                          -- 1509-1510
  let boot ← BootSector.init bootBuf
  let spc ← BootSector.sectorsPerCluster boot
  let bps ← BootSector.bytesPerSector boot
  let clusterSize := spc * bps                                                            -- 1513
  let frsSize ← BootSector.fileRecordSegmentSize boot
  let firstCluster ← BootSector.firstMftCluster boot
  let buf ← seekRead volume (volumeOffset + firstCluster * clusterSize) frsSize           -- 1519-1520
  let first ← FileRecordSegment.init buf true (some 0)                                    -- 1521
  let list ← findAttributeList volume volumeOffset clusterSize first.attributesGen.err first.attributesGen.items
  match ← (FileRecord.mk first []).getDataRuns with                                       -- 1536-1538
  | none => .error .MasterFileTableException
  | some runs =>
    match ← (FileRecord.mk first []).getDataSize with                                     -- 1545
    | none => .error .MasterFileTableException
    | some size =>
      let f : FragmentedFile := ⟨volume, volumeOffset, clusterSize, runs, size.toNat⟩
      match list with
      | none => .ok f
      | some value => extendByList first f value

end Verif.MFT
