/-
Model of dfir_ntfs/MFT.py:1369-1484: `FragmentedFile`, a file-like object over data runs.
-/
import Verif.Model.MFT.MappingPairs
namespace Verif.MFT

/-- dfir_ntfs/MFT.py:1372-1400: the fields of a `FragmentedFile` except the current offset, which is
passed around as a separate value (the state).  The volume is an immutable byte string; its file
object is only used through `seek` + `read` pairs (1442-1443), so its own position is not modelled. -/
structure FragmentedFile where
  volume : Bytes
  volumeOffset : Nat
  clusterSize : Nat
  dataRuns : List Run
  fileSize : Nat

/-- dfir_ntfs/MFT.py:1402-1420 `seek`: the result and the new current offset. -/
def FragmentedFile.seek (f : FragmentedFile) (pos : Nat) (offset : Int) (whence : Int := 0) : Except Exc Nat × Nat :=
  if whence = 0 then
    if offset < 0 then (.error .ValueError, pos) else (.ok offset.toNat, offset.toNat)
  else if whence = 1 then
    if pos + offset < 0 then (.error .ValueError, pos) else (.ok (pos + offset).toNat, (pos + offset).toNat)
  else if whence = 2 then
    if f.fileSize + offset < 0 then (.error .ValueError, pos)
    else (.ok (f.fileSize + offset).toNat, (f.fileSize + offset).toNat)
  else (.error .ValueError, pos)

/-- dfir_ntfs/MFT.py:1422-1425 `tell`. -/
def FragmentedFile.tell (_f : FragmentedFile) (pos : Nat) : Nat := pos

/-- dfir_ntfs/MFT.py:1440-1451: read one cluster of the volume.  Seeking a file object to a negative
offset raises `ValueError` (this is what in-memory and raw file objects of Python do), to one beyond
the range of a C integer `OverflowError`. -/
def FragmentedFile.readCluster (f : FragmentedFile) (lcn : Int) : Except Exc Bytes :=
  let start := f.volumeOffset + lcn * f.clusterSize
  if start < 0 then .error .ValueError
  else
    match seekRead f.volume start.toNat f.clusterSize with
    | .error e => .error e
    | .ok data =>
      if data.length = 0 then .error .MasterFileTableException
      else if data.length ≠ f.clusterSize then .error .MasterFileTableException
      else .ok data

/-- dfir_ntfs/MFT.py:1430-1453, the loop of `read_virtual_cluster`. -/
def FragmentedFile.readVirtualClusterLoop (f : FragmentedFile) (vcn : Nat) : List Run → Int → Except Exc Bytes
  | [], _ => .error .MasterFileTableException                                   -- 1453
  | (offset, size) :: rest, skipped =>
    if skipped + size ≤ vcn then f.readVirtualClusterLoop vcn rest (skipped + size)   -- 1432-1434
    else
      match offset with
      | none => .ok (zeros f.clusterSize)                                       -- 1437-1438
      | some lcn => f.readCluster (lcn + (vcn - skipped))                       -- 1440-1451

/-- dfir_ntfs/MFT.py:1427-1453 `read_virtual_cluster`. -/
def FragmentedFile.readVirtualCluster (f : FragmentedFile) (vcn : Nat) : Except Exc Bytes :=
  f.readVirtualClusterLoop vcn f.dataRuns 0

theorem FragmentedFile.readCluster_length {f : FragmentedFile} {lcn : Int} {c : Bytes}
    (h : f.readCluster lcn = .ok c) : c.length = f.clusterSize := by
  unfold FragmentedFile.readCluster at h
  dsimp only at h
  split at h
  · cases h
  split at h
  · cases h
  split at h
  · cases h
  split at h
  · cases h
  · cases h; omega

theorem FragmentedFile.readVirtualClusterLoop_length {f : FragmentedFile} {vcn : Nat} {runs : List Run} {skipped : Int}
    {c : Bytes} (h : f.readVirtualClusterLoop vcn runs skipped = .ok c) : c.length = f.clusterSize := by
  induction runs generalizing skipped with
  | nil => simp [FragmentedFile.readVirtualClusterLoop] at h
  | cons r rest ih =>
    obtain ⟨o, s⟩ := r
    unfold FragmentedFile.readVirtualClusterLoop at h
    split at h
    · exact ih h
    · split at h
      · cases h; simp [zeros]
      · exact readCluster_length h

theorem FragmentedFile.readVirtualCluster_length {f : FragmentedFile} {vcn : Nat} {c : Bytes}
    (h : f.readVirtualCluster vcn = .ok c) : c.length = f.clusterSize := readVirtualClusterLoop_length h

/-- dfir_ntfs/MFT.py:1470-1484, the loop of `read`: `data` are the bytes read so far, `pos` the
current offset. -/
def FragmentedFile.readLoop (f : FragmentedFile) (hcs : 0 < f.clusterSize) (size : Nat) (data : Bytes) (pos : Nat) :
    Except Exc Bytes × Nat :=
  if hs : size - data.length > 0 then
    if pos ≥ f.fileSize then (.ok data, pos)                                    -- 1472-1473
    else
      match h : f.readVirtualCluster (pos / f.clusterSize) with
      | .error e => (.error e, pos)
      | .ok c =>
        have : 0 < (slice c (pos % f.clusterSize) (pos % f.clusterSize + (size - data.length))).length := by
          have h1 := FragmentedFile.readVirtualCluster_length h
          have h2 := Nat.mod_lt pos hcs
          rw [slice_length]; omega
        f.readLoop hcs size
          (data ++ slice c (pos % f.clusterSize) (pos % f.clusterSize + (size - data.length)))
          (pos + (slice c (pos % f.clusterSize) (pos % f.clusterSize + (size - data.length))).length)
  else (.ok data, pos)
termination_by size - data.length
decreasing_by simp only [List.length_append]; omega

/-- dfir_ntfs/MFT.py:1458-1459: the defaulting of `size`. -/
def FragmentedFile.effectiveSize (f : FragmentedFile) (pos : Nat) : Option Int → Int
  | none => f.fileSize - pos
  | some s => if s < 0 then f.fileSize - pos else s

/-- dfir_ntfs/MFT.py:1461-1484: `read` after the defaulting of `size`.  A cluster size of zero makes
line 1464 raise `ZeroDivisionError`. -/
def FragmentedFile.readSize (f : FragmentedFile) (pos : Nat) (size : Int) : Except Exc Bytes × Nat :=
  if size ≤ 0 ∨ pos ≥ f.fileSize then (.ok [], pos)                             -- 1461-1462
  else if hcs : 0 < f.clusterSize then
    match f.readVirtualCluster (pos / f.clusterSize) with
    | .error e => (.error e, pos)
    | .ok c =>
      f.readLoop hcs size.toNat
        (slice c (pos % f.clusterSize) (pos % f.clusterSize + size.toNat))
        (pos + (slice c (pos % f.clusterSize) (pos % f.clusterSize + size.toNat)).length)  -- 1467-1468
  else (.error .ZeroDivisionError, pos)

/-- dfir_ntfs/MFT.py:1455-1484 `read`: the result and the new current offset. -/
def FragmentedFile.read (f : FragmentedFile) (pos : Nat) (size : Option Int := none) : Except Exc Bytes × Nat :=
  f.readSize pos (f.effectiveSize pos size)

end Verif.MFT
