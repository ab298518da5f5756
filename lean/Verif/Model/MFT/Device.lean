/-
Model of dfir_ntfs/MFT.py:568-584, 936-1005, 1281-1317, 1427-1484 and 1503-1584 for a volume that is any file object, of which some parts can
be unreadable.  (`Verif.Model.MFT.FragmentedFile` and `Verif.Model.MFT.FileSystem` are for a volume that is a byte string.)
-/
import Verif.Model.MFT.FileSystem
namespace Verif.MFT

/-- What `seek(offset)` and then `read(n)` give on a file object, as at dfir_ntfs/MFT.py:1442-1443 and 1509-1510. -/
abbrev Device := Nat → Nat → Except Exc Bytes

/-- dfir_ntfs/MFT.py:1372-1400: the fields of a `FragmentedFile`, see `FragmentedFile`. -/
structure DeviceFile where
  volume : Device
  volumeOffset : Nat
  clusterSize : Nat
  dataRuns : List Run
  fileSize : Nat

/-- dfir_ntfs/MFT.py:1440-1451: read one cluster of the volume. -/
def DeviceFile.readCluster (f : DeviceFile) (lcn : Int) : Except Exc Bytes :=
  let start := f.volumeOffset + lcn * f.clusterSize
  if start < 0 then .error .ValueError
  else
    match f.volume start.toNat f.clusterSize with
    | .error e => .error e
    | .ok data =>
      if data.length = 0 then .error .MasterFileTableException
      else if data.length ≠ f.clusterSize then .error .MasterFileTableException
      else .ok data

/-- dfir_ntfs/MFT.py:1430-1453, the loop of `read_virtual_cluster`. -/
def DeviceFile.readVirtualClusterLoop (f : DeviceFile) (vcn : Nat) : List Run → Int → Except Exc Bytes
  | [], _ => .error .MasterFileTableException                                   -- 1453
  | (offset, size) :: rest, skipped =>
    if skipped + size ≤ vcn then f.readVirtualClusterLoop vcn rest (skipped + size)   -- 1432-1434
    else
      match offset with
      | none => .ok (zeros f.clusterSize)                                       -- 1437-1438
      | some lcn => f.readCluster (lcn + (vcn - skipped))                       -- 1440-1451

/-- dfir_ntfs/MFT.py:1427-1453 `read_virtual_cluster`. -/
def DeviceFile.readVirtualCluster (f : DeviceFile) (vcn : Nat) : Except Exc Bytes := f.readVirtualClusterLoop vcn f.dataRuns 0

theorem DeviceFile.readCluster_length {f : DeviceFile} {lcn : Int} {c : Bytes} (h : f.readCluster lcn = .ok c) : c.length = f.clusterSize := by
  unfold DeviceFile.readCluster at h
  dsimp only at h
  split at h
  · cases h
  split at h
  · cases h
  split at h
  · cases h
  split at h
  · cases h
  · cases h; omega

theorem DeviceFile.readVirtualClusterLoop_length {f : DeviceFile} {vcn : Nat} {runs : List Run} {skipped : Int} {c : Bytes}
    (h : f.readVirtualClusterLoop vcn runs skipped = .ok c) : c.length = f.clusterSize := by
  induction runs generalizing skipped with
  | nil => simp [DeviceFile.readVirtualClusterLoop] at h
  | cons r rest ih =>
    obtain ⟨o, s⟩ := r
    unfold DeviceFile.readVirtualClusterLoop at h
    split at h
    · exact ih h
    · split at h
      · cases h; simp [zeros]
      · exact readCluster_length h

theorem DeviceFile.readVirtualCluster_length {f : DeviceFile} {vcn : Nat} {c : Bytes} (h : f.readVirtualCluster vcn = .ok c) :
    c.length = f.clusterSize := readVirtualClusterLoop_length h

/-- dfir_ntfs/MFT.py:1470-1484, the loop of `read`: `data` are the bytes read so far, `pos` the current offset. -/
def DeviceFile.readLoop (f : DeviceFile) (hcs : 0 < f.clusterSize) (size : Nat) (data : Bytes) (pos : Nat) : Except Exc Bytes :=
  if hs : size - data.length > 0 then
    if pos ≥ f.fileSize then .ok data                                           -- 1472-1473
    else
      match h : f.readVirtualCluster (pos / f.clusterSize) with
      | .error e => .error e
      | .ok c =>
        have : 0 < (slice c (pos % f.clusterSize) (pos % f.clusterSize + (size - data.length))).length := by
          have h1 := DeviceFile.readVirtualCluster_length h
          have h2 := Nat.mod_lt pos hcs
          rw [slice_length]; omega
        f.readLoop hcs size
          (data ++ slice c (pos % f.clusterSize) (pos % f.clusterSize + (size - data.length)))
          (pos + (slice c (pos % f.clusterSize) (pos % f.clusterSize + (size - data.length))).length)
  else .ok data
termination_by size - data.length
decreasing_by simp only [List.length_append]; omega

/-- dfir_ntfs/MFT.py:1402-1420 and 1455-1484: `seek(offset)` and then `read(n)`.  The first cluster (1464-1468) is read as the others are: the
check of line 1472 is that of line 1461. -/
def DeviceFile.readAt (f : DeviceFile) (offset n : Nat) : Except Exc Bytes :=
  if n = 0 ∨ offset ≥ f.fileSize then .ok []                                    -- 1461-1462
  else if hcs : 0 < f.clusterSize then f.readLoop hcs n [] offset
  else .error .ZeroDivisionError                                                -- 1464

/-- The bytes of the file, read with one call (dfir_ntfs/MFT.py:1455-1484). -/
def DeviceFile.contents (f : DeviceFile) : Except Exc Bytes := f.readAt 0 f.fileSize

/-! ### `MasterFileTableParser` on a file object -/

/-- dfir_ntfs/MFT.py:995-1005 `get_file_record_segment_by_number`. -/
def segmentFrom (read : Device) (fileSize size n : Nat) : Except Exc FileRecordSegment :=
  if n * size > fileSize then .error .MasterFileTableException                            -- 999-1000
  else
    match read (n * size) size with
    | .error e => .error e
    | .ok buf => FileRecordSegment.init buf true (some n)

/-- dfir_ntfs/MFT.py:936-962: the constructor without the first pass; the result is the size of a file record segment. -/
def segmentSizeFrom (read : Device) (fileSize : Nat) : Except Exc Nat :=
  match read 0 4 with
  | .error e => .error e
  | .ok signature =>
    if signature ≠ multiSectorHeaderSignatureGood then .error .FileRecordSegmentSignatureException  -- 945
    else
      match read 28 4 with
      | .error e => .error e
      | .ok raw =>
        if raw.length ≠ 4 then .error .FileRecordSegmentException                         -- 950
        else if leNat raw ∉ fileRecordSegmentSizesSupported then .error .FileRecordSegmentException  -- 954
        else
          match segmentFrom read fileSize (leNat raw) 3 with                              -- 970
          | .error e => .error e
          | .ok volumeSegment =>
            match checkVersionLoop volumeSegment.attributesGen.err volumeSegment.attributesGen.items with
            | .error e => .error e
            | .ok () => .ok (leNat raw)

/-- dfir_ntfs/MFT.py:1287-1313, the loop of `execute_first_pass`, see `firstPassLoop`: an exception of `read` is not caught. -/
def firstPassFrom (read : Device) (fileSize size i : Nat) (cache : List (Nat × List Nat)) : Except Exc (List (Nat × List Nat)) :=
  if i * size < fileSize ∧ 0 < size then                                                  -- 1288
    match read (i * size) size with                                                       -- 1289-1290
    | .error e => .error e
    | .ok buf =>
      if buf.length ≠ size then .ok cache                                                 -- 1292
      else
        match FileRecordSegment.init buf true (some i) with                               -- 1296
        | .error e => if isFrsExc e then firstPassFrom read fileSize size (i + 1) cache else .error e   -- 1297-1300
        | .ok f =>
          if f.isBaseFileRecordSegment then firstPassFrom read fileSize size (i + 1) cache
          else firstPassFrom read fileSize size (i + 1) (cacheAdd cache f.baseFileRecordSegment i)   -- 1304-1313
  else .ok cache
termination_by fileSize - i * size
decreasing_by all_goals (rw [Nat.add_mul]; omega)

/-- dfir_ntfs/MFT.py:936-966, the constructor: the size of a file record segment and the cache. -/
def initFrom (read : Device) (fileSize : Nat) : Except Exc (Nat × List (Nat × List Nat)) :=
  match segmentSizeFrom read fileSize with
  | .error e => .error e
  | .ok size =>
    match firstPassFrom read fileSize size 0 [] with
    | .error e => .error e
    | .ok cache => .ok (size, cache)

/-! ### `FileSystemParser` -/

/-- dfir_ntfs/MFT.py:568-582, see `readRuns`. -/
def readRunsFrom (volume : Device) (volumeOffset clusterSize : Nat) : List Run → Bytes → Except Exc Bytes
  | [], value => .ok value
  | (none, _) :: _, _ => .error .MasterFileTableException                                 -- 572-573
  | (some lcn, len) :: rest, value =>
    let start : Int := volumeOffset + lcn * clusterSize
    if start < 0 then .error .ValueError                                                  -- 575
    else
      match volume start.toNat (len.toNat * clusterSize) with                             -- 576
      | .error e => .error e
      | .ok data =>
        if data.length ≠ len.toNat * clusterSize then .error .MasterFileTableException    -- 578-579
        else readRunsFrom volume volumeOffset clusterSize rest (value ++ data)            -- 581

/-- dfir_ntfs/MFT.py:1525-1533 (with 565-584): the value of the first attribute list, if there is one. -/
def findAttributeListFrom (volume : Device) (volumeOffset clusterSize : Nat) (err : Option Exc) : List AttributeRecord → Except Exc (Option Bytes)
  | [] =>
    match err with
    | some e => .error e
    | none => .ok none
  | a :: rest =>
    if a.typeCode = 0x20 then
      match a with
      | .nonresident _ _ _ _ _ fs runs => (readRunsFrom volume volumeOffset clusterSize runs []).map fun v => some (v.take fs.toNat)
      | .resident _ _ value => .ok (some value)
    else findAttributeListFrom volume volumeOffset clusterSize err rest

/-- dfir_ntfs/MFT.py:1571-1581, see `extendRuns`. -/
def DeviceFile.extendRuns (first : FileRecordSegment) : List Attributes.AttributeListEntry → List FileRecordSegment → DeviceFile → Except Exc DeviceFile
  | [], _, f => .ok f
  | e :: rest, children, f =>
    match segmentSizeFrom f.readAt f.fileSize with                                        -- 1575
    | .error x => .error x
    | .ok size =>
      match segmentFrom f.readAt f.fileSize size (decodeFileRecordSegmentReference e.segmentReference).1 with   -- 1576
      | .error x => .error x
      | .ok child =>
        match (FileRecord.mk first (children ++ [child])).getDataRuns with                -- 1578-1581
        | .error x => .error x
        | .ok none => .error .TypeError
        | .ok (some runs) => DeviceFile.extendRuns first rest (children ++ [child]) { f with dataRuns := runs }

/-- dfir_ntfs/MFT.py:1551-1581, see `extendByList`. -/
def DeviceFile.extendByList (first : FileRecordSegment) (f : DeviceFile) (value : Bytes) : Except Exc DeviceFile :=
  match dataEntries value with
  | [] => .error .MasterFileTableException                                                -- 1565-1566
  | e :: rest =>
    if (decodeFileRecordSegmentReference e.segmentReference).1 ≠ 0 then .error .MasterFileTableException  -- 1568-1569
    else DeviceFile.extendRuns first rest [] f

/-- dfir_ntfs/MFT.py:1503-1584 `FileSystemParser.__init__`, see `openVolume`. -/
def openDevice (volume : Device) (volumeOffset : Nat) : Except Exc DeviceFile := do
  let bootBuf ← volume volumeOffset 512                                                   -- 1509-1510
  let boot ← BootSector.init bootBuf
  let spc ← BootSector.sectorsPerCluster boot
  let bps ← BootSector.bytesPerSector boot
  let clusterSize := spc * bps                                                            -- 1513
  let frsSize ← BootSector.fileRecordSegmentSize boot
  let firstCluster ← BootSector.firstMftCluster boot
  let buf ← volume (volumeOffset + firstCluster * clusterSize) frsSize                    -- 1519-1520
  let first ← FileRecordSegment.init buf true (some 0)                                    -- 1521
  let list ← findAttributeListFrom volume volumeOffset clusterSize first.attributesGen.err first.attributesGen.items
  match ← (FileRecord.mk first []).getDataRuns with                                       -- 1536-1538
  | none => .error .MasterFileTableException
  | some runs =>
    match ← (FileRecord.mk first []).getDataSize with                                     -- 1545
    | none => .error .MasterFileTableException
    | some size =>
      let f : DeviceFile := ⟨volume, volumeOffset, clusterSize, runs, size.toNat⟩
      match list with
      | none => .ok f
      | some value => DeviceFile.extendByList first f value

end Verif.MFT
