/-
Model of dfir_ntfs/MFT.py:995-1070, 1319-1364 and 1402-1484 with the position of the file object that is read: several objects can use one file
object, each of them moves its position.  (In `FragmentedFile.lean` and `Parser.lean` a `seek` with the `read` after it is one step, and the file
object has no position.)
-/
import Verif.Model.MFT.FragmentedFile
import Verif.Model.MFT.Parser
namespace Verif.MFT

/-! ### The file object

These are the methods of the binary files of Python (not code of dfir_ntfs), as `seekRead` describes them, one by one. -/

/-- `file_object.seek(offset)` (called at dfir_ntfs/MFT.py:1003, 1018, 1324, 1442): what is raised, and the new position. -/
def fileSeek (position : Nat) (offset : Int) : Except Exc Unit × Nat :=
  if offset < 0 then (.error .ValueError, position)
  else if offset ≥ 2 ^ 63 then (.error .OverflowError, position)
  else (.ok (), offset.toNat)

/-- `file_object.read(n)` (called at dfir_ntfs/MFT.py:1004, 1019, 1325, 1443) of a file with the contents `b`: the data, and the new position. -/
def fileRead (b : Bytes) (position n : Nat) : Except Exc Bytes × Nat :=
  if n ≥ 2 ^ 63 then (.error .OverflowError, position)
  else (.ok (slice b position (position + n)), position + (slice b position (position + n)).length)

/-! ### `FragmentedFile` -/

/-- dfir_ntfs/MFT.py:1442: the seek before a cluster is read. -/
def FragmentedFile.seekCluster (f : FragmentedFile) (position : Nat) (lcn : Int) : Except Exc Unit × Nat :=
  fileSeek position (f.volumeOffset + lcn * f.clusterSize)

/-- dfir_ntfs/MFT.py:1443-1451: read a cluster where the volume object is. -/
def FragmentedFile.takeCluster (f : FragmentedFile) (position : Nat) : Except Exc Bytes × Nat :=
  match fileRead f.volume position f.clusterSize with
  | (.error e, position) => (.error e, position)
  | (.ok data, position) =>
    if data.length = 0 then (.error .MasterFileTableException, position)
    else if data.length ≠ f.clusterSize then (.error .MasterFileTableException, position)
    else (.ok data, position)

/-- dfir_ntfs/MFT.py:1427-1453 `read_virtual_cluster`: the data, and the new position of the volume object. -/
def FragmentedFile.sharedVirtualClusterLoop (f : FragmentedFile) (vcn : Nat) : List Run → Int → Nat → Except Exc Bytes × Nat
  | [], _, position => (.error .MasterFileTableException, position)                       -- 1453
  | (offset, size) :: rest, skipped, position =>
    if skipped + size ≤ vcn then f.sharedVirtualClusterLoop vcn rest (skipped + size) position   -- 1432-1434
    else
      match offset with
      | none => (.ok (zeros f.clusterSize), position)                                     -- 1437-1438
      | some lcn =>
        match f.seekCluster position (lcn + (vcn - skipped)) with                         -- 1440-1442
        | (.error e, position) => (.error e, position)
        | (.ok (), position) => f.takeCluster position                                    -- 1443-1451

/-- The data does not depend on the position of the volume object. -/
theorem FragmentedFile.sharedVirtualClusterLoop_data (f : FragmentedFile) (vcn : Nat) (runs : List Run) (skipped : Int) (position : Nat) :
    (f.sharedVirtualClusterLoop vcn runs skipped position).1 = f.readVirtualClusterLoop vcn runs skipped := by
  induction runs generalizing skipped position with
  | nil => rfl
  | cons r rest ih =>
    obtain ⟨o, s⟩ := r
    unfold FragmentedFile.sharedVirtualClusterLoop FragmentedFile.readVirtualClusterLoop
    split
    · exact ih _ _
    · split
      · rfl
      · next lcn =>
        unfold FragmentedFile.seekCluster fileSeek FragmentedFile.readCluster
        dsimp only
        generalize (f.volumeOffset : Int) + (lcn + (vcn - skipped)) * f.clusterSize = start
        by_cases h1 : start < 0
        · rw [if_pos h1, if_pos h1]
        · rw [if_neg h1, if_neg h1]
          by_cases h2 : start ≥ 2 ^ 63
          · rw [if_pos h2]
            unfold seekRead
            rw [if_pos (.inl (by omega))]
          · rw [if_neg h2]
            dsimp only
            unfold FragmentedFile.takeCluster fileRead seekRead
            by_cases h3 : f.clusterSize ≥ 2 ^ 63
            · rw [if_pos h3, if_pos (.inr h3)]
            · rw [if_neg h3, if_neg (by omega)]
              dsimp only
              split
              · rfl
              · split <;> rfl

/-- dfir_ntfs/MFT.py:1470-1484, the loop of `read`: `data` are the bytes read so far, `pos` is the current offset of the file, `position` the position of
the volume object; the result is the data, the offset and the position. -/
def FragmentedFile.sharedReadLoop (f : FragmentedFile) (hcs : 0 < f.clusterSize) (size : Nat) (data : Bytes) (pos position : Nat) :
    Except Exc Bytes × Nat × Nat :=
  if hs : size - data.length > 0 then
    if pos ≥ f.fileSize then (.ok data, pos, position)                                    -- 1472-1473
    else
      match h : f.sharedVirtualClusterLoop (pos / f.clusterSize) f.dataRuns 0 position with
      | (.error e, position) => (.error e, pos, position)
      | (.ok c, position) =>
        have : 0 < (slice c (pos % f.clusterSize) (pos % f.clusterSize + (size - data.length))).length := by
          have h0 := FragmentedFile.sharedVirtualClusterLoop_data f (pos / f.clusterSize) f.dataRuns 0
          have h1 := FragmentedFile.readVirtualClusterLoop_length ((h0 _).symm.trans (congrArg Prod.fst h))
          have h2 := Nat.mod_lt pos hcs
          rw [slice_length]; omega
        f.sharedReadLoop hcs size
          (data ++ slice c (pos % f.clusterSize) (pos % f.clusterSize + (size - data.length)))
          (pos + (slice c (pos % f.clusterSize) (pos % f.clusterSize + (size - data.length))).length) position
  else (.ok data, pos, position)
termination_by size - data.length
decreasing_by simp only [List.length_append]; omega

/-- dfir_ntfs/MFT.py:1455-1484 `read`: the data, the new offset of the file, and the new position of the volume object. -/
def FragmentedFile.sharedRead (f : FragmentedFile) (pos position : Nat) (size : Option Int) : Except Exc Bytes × Nat × Nat :=
  let size := f.effectiveSize pos size                                                    -- 1458-1459
  if size ≤ 0 ∨ pos ≥ f.fileSize then (.ok [], pos, position)                             -- 1461-1462
  else if hcs : 0 < f.clusterSize then
    match f.sharedVirtualClusterLoop (pos / f.clusterSize) f.dataRuns 0 position with
    | (.error e, position) => (.error e, pos, position)
    | (.ok c, position) =>
      f.sharedReadLoop hcs size.toNat
        (slice c (pos % f.clusterSize) (pos % f.clusterSize + size.toNat))
        (pos + (slice c (pos % f.clusterSize) (pos % f.clusterSize + size.toNat)).length) position  -- 1467-1468
  else (.error .ZeroDivisionError, pos, position)

/-- dfir_ntfs/MFT.py:1402-1484: the methods of a `FragmentedFile`, with their arguments. -/
inductive FileCall where
  | seek (offset whence : Int)
  | tell
  | read (size : Option Int)
  deriving DecidableEq, Repr

/-- dfir_ntfs/MFT.py:1402-1484: what a method returns or raises. -/
inductive FileAnswer where
  | position (n : Nat)
  | data (d : Bytes)
  | raised (e : Exc)
  deriving DecidableEq, Repr

/-- dfir_ntfs/MFT.py:1402-1484: a call of a method of a file at the offset `pos`, when the volume object is at `position`. -/
def FragmentedFile.sharedCall (f : FragmentedFile) (pos position : Nat) : FileCall → FileAnswer × Nat × Nat
  | .seek offset whence =>
    match f.seek pos offset whence with
    | (.ok n, pos) => (.position n, pos, position)
    | (.error e, pos) => (.raised e, pos, position)
  | .tell => (.position (f.tell pos), pos, position)
  | .read size =>
    match f.sharedRead pos position size with
    | (.ok d, pos, position) => (.data d, pos, position)
    | (.error e, pos, position) => (.raised e, pos, position)

/-- dfir_ntfs/MFT.py:1402-1484: the same call of a file that is described without the position of the volume object. -/
def FragmentedFile.call (f : FragmentedFile) (pos : Nat) : FileCall → FileAnswer × Nat
  | .seek offset whence =>
    match f.seek pos offset whence with
    | (.ok n, pos) => (.position n, pos)
    | (.error e, pos) => (.raised e, pos)
  | .tell => (.position (f.tell pos), pos)
  | .read size =>
    match f.read pos size with
    | (.ok d, pos) => (.data d, pos)
    | (.error e, pos) => (.raised e, pos)

/-- dfir_ntfs/MFT.py:1402-1484: the answers to the calls of one file, from the offset `pos`. -/
def FragmentedFile.calls (f : FragmentedFile) : Nat → List FileCall → List FileAnswer
  | _, [] => []
  | pos, c :: rest => (f.call pos c).1 :: f.calls (f.call pos c).2 rest

/-- dfir_ntfs/MFT.py:1402-1484, as it is called: one step of a program that has several files on one volume object: a call of a method of the file number `i`, or a `seek` or a `read` of the volume
object itself (by any other user of it). -/
inductive Step where
  | file (i : Nat) (c : FileCall)
  | volumeSeek (offset : Int)
  | volumeRead (n : Nat)
  deriving DecidableEq, Repr

/-- dfir_ntfs/MFT.py:1402-1484, as it is called: the steps of such a program in their order, where `offset i` is the offset of the file number `i`: the answers of the files (the numbers of the files
with the answers; what the other users read is not kept). -/
def runSteps (volume : Bytes) (files : Nat → FragmentedFile) : (Nat → Nat) → Nat → List Step → List (Nat × FileAnswer)
  | _, _, [] => []
  | offset, position, .file i c :: rest =>
    (i, ((files i).sharedCall (offset i) position c).1) ::
      runSteps volume files (fun j => if j = i then ((files i).sharedCall (offset i) position c).2.1 else offset j)
        ((files i).sharedCall (offset i) position c).2.2 rest
  | offset, position, .volumeSeek o :: rest => runSteps volume files offset (fileSeek position o).2 rest
  | offset, position, .volumeRead n :: rest => runSteps volume files offset (fileRead volume position n).2 rest

/-! ### `MasterFileTableParser` -/

/-- dfir_ntfs/MFT.py:1003-1004, 1018-1019 and 1324-1325: `seek(offset)`, and then `read(n)`. -/
def sharedSeekRead (b : Bytes) (position offset n : Nat) : Except Exc Bytes × Nat :=
  match fileSeek position offset with
  | (.error e, position) => (.error e, position)
  | (.ok (), position) => fileRead b position n

/-- dfir_ntfs/MFT.py:995-1005 `get_file_record_segment_by_number`. -/
def Parser.sharedSegment (p : Parser) (position n : Nat) : Except Exc FileRecordSegment × Nat :=
  if n * p.size > p.file.length then (.error .MasterFileTableException, position)         -- 1000
  else
    match sharedSeekRead p.file position (n * p.size) p.size with
    | (.error e, position) => (.error e, position)
    | (.ok buf, position) => (FileRecordSegment.init buf true (some n), position)

/-- dfir_ntfs/MFT.py:1039-1041: load the child segments. -/
def Parser.sharedChildren (p : Parser) : List Nat → Nat → Except Exc (List FileRecordSegment) × Nat
  | [], position => (.ok [], position)
  | n :: rest, position =>
    match p.sharedSegment position n with
    | (.error e, position) => (.error e, position)
    | (.ok f, position) =>
      match p.sharedChildren rest position with
      | (.error e, position) => (.error e, position)
      | (.ok fs, position) => (.ok (f :: fs), position)

/-- dfir_ntfs/MFT.py:1037-1045 and 1356-1364: the file record of a base segment. -/
def Parser.sharedAssemble (p : Parser) (position : Nat) (f : FileRecordSegment) : Except Exc FileRecord × Nat :=
  match f.masterFileTableNumber with
  | none => (.error .TypeError, position)
  | some mft =>
    match cacheGet p.cache (encodeFileRecordSegmentReference mft (effectiveSequenceNumber f)) with
    | none => (.ok ⟨f, []⟩, position)
    | some ns =>
      match p.sharedChildren ns position with
      | (.error e, position) => (.error e, position)
      | (.ok fs, position) => (.ok ⟨f, fs⟩, position)

/-- dfir_ntfs/MFT.py:1007-1070 `get_file_record_by_number` with `allow_child_file_record_segment_number = False`. -/
def Parser.sharedBaseRecord (p : Parser) (position n : Nat) (expected : Option Nat) : Except Exc FileRecord × Nat :=
  match p.sharedSegment position n with
  | (.error e, position) => (.error e, position)
  | (.ok f, position) =>
    if f.isBaseFileRecordSegment then
      if expected ≠ none ∧ expected ≠ some (effectiveSequenceNumber f) then (.error .MasterFileTableException, position)
      else p.sharedAssemble position f
    else (.error .MasterFileTableException, position)

/-- dfir_ntfs/MFT.py:1007-1070 `get_file_record_by_number`. -/
def Parser.sharedRecord (p : Parser) (position n : Nat) (expected : Option Nat) : Except Exc FileRecord × Nat :=
  match p.sharedSegment position n with
  | (.error e, position) => (.error e, position)
  | (.ok f, position) =>
    if f.isBaseFileRecordSegment then
      if expected ≠ none ∧ expected ≠ some (effectiveSequenceNumber f) then (.error .MasterFileTableException, position)
      else p.sharedAssemble position f
    else if expected ≠ none ∧ expected ≠ some (effectiveSequenceNumber f) then (.error .MasterFileTableException, position)
    else
      match p.cache.find? (fun e => e.2.contains n) with
      | some e =>
        let d := decodeFileRecordSegmentReference e.1
        p.sharedBaseRecord position d.1 (some d.2)
      | none => (.error .MasterFileTableException, position)

/-- dfir_ntfs/MFT.py:1319-1367: what a generator gives when it is resumed: an item (and the value of its variable for the next time), its end, or an exception. -/
inductive Next (α : Type) where
  | item (a : α) (i : Nat)
  | done
  | raised (e : Exc)
  deriving DecidableEq, Repr

/-- dfir_ntfs/MFT.py:1321-1367: the generator of `file_records` when it is resumed with `pos = i * file_record_segment_size` (lines 1321 and 1367) and the file
object at `position`. -/
def Parser.nextRecord (p : Parser) (inUseOnly : Bool) (position i : Nat) : Next FileRecord × Nat :=
  if i * p.size < p.file.length ∧ 0 < p.size then                                         -- 1323
    match sharedSeekRead p.file position (i * p.size) p.size with                         -- 1324-1325
    | (.error e, position) => (.raised e, position)
    | (.ok buf, position) =>
      if buf.length ≠ p.size then (.done, position)                                       -- 1327
      else
        match FileRecordSegment.init buf true (some i) with
        | .error e => if isFrsExc e then p.nextRecord inUseOnly position (i + 1) else (.raised e, position)   -- 1332
        | .ok f =>
          if inUseOnly ∧ ¬ f.isInUse then p.nextRecord inUseOnly position (i + 1)         -- 1337
          else if f.isBaseFileRecordSegment then
            match p.sharedAssemble position f with
            | (.error e, position) => (.raised e, position)
            | (.ok r, position) => (.item r (i + 1), position)
          else p.nextRecord inUseOnly position (i + 1)
  else (.done, position)
termination_by p.file.length - i * p.size
decreasing_by all_goals (rw [Nat.add_mul]; omega)

/-- dfir_ntfs/MFT.py:1319-1367: the records that a `for` loop over `file_records` gets, where the file object is at `elsewhere k` when the generator is resumed
for the `k`-th time (the body of the loop can have moved it).  At most `fuel` records are taken; `none` when this is not the end. -/
def Parser.recordsAmong (p : Parser) (inUseOnly : Bool) (elsewhere : Nat → Nat) : Nat → Nat → Nat → Option (Gen FileRecord)
  | 0, _, _ => none
  | fuel + 1, k, i =>
    match (p.nextRecord inUseOnly (elsewhere k) i).1 with
    | .done => some .done
    | .raised e => some (.fail e)
    | .item r i => (p.recordsAmong inUseOnly elsewhere fuel (k + 1) i).map (.cons r)

end Verif.MFT
