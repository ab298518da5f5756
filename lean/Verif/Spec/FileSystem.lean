/-
What the `$MFT` file of an NTFS volume is, independently of how it is found (used by C82-C84).
-/
import Verif.Model.MFT.FileSystem
import Verif.Spec.FragmentedFile
import Verif.Spec.FileRecord
namespace Verif.Spec.FileSystem
open Verif.MFT Verif.Attributes Verif.Spec.FragmentedFile

/-- Byte `off + i` of the file is byte `i` of `buf`, for all the `n` bytes of `buf`. -/
def BytesAt (f : FragmentedFile) (off n : Nat) (buf : Bytes) : Prop :=
  buf.length = n ∧ ∀ i, i < n → buf[i]? = fileByte f (off + i)

/-- The segment number `n` of the file `f`, when segments have `size` bytes (less, if the last cluster of the
file ends before), is `s`. -/
def SegmentAt (f : FragmentedFile) (size n : Nat) (s : FileRecordSegment) : Prop :=
  ∃ buf, BytesAt f (n * size) (min size (allocatedEnd f - n * size)) buf ∧ FileRecordSegment.init buf true (some n) = .ok s

/-- The size of the segments, as the first one in the file records it. -/
def SegmentSize (f : FragmentedFile) (size : Nat) : Prop :=
  BytesAt f 0 4 [0x46, 0x49, 0x4C, 0x45] ∧ BytesAt f 28 4 (natLE 4 size) ∧ (size = 1024 ∨ size = 4096)

/-- The bytes of an attribute list: stored in the record, or at the clusters of its runs. -/
def ListBytes (volume : Bytes) (off clusterSize : Nat) (value : Bytes) : AttributeRecord → Prop
  | .resident _ _ v => value = v
  | .nonresident _ _ _ _ _ fs runs =>
    (∀ r ∈ runs, r.1 ≠ none) ∧
    BytesAt ⟨volume, off, clusterSize, runs, fs.toNat⟩ 0 (min fs.toNat ((clusterMap runs).length * clusterSize)) value

/-- The entries of an attribute list for the unnamed `$DATA` attribute, in the order of their lowest VCNs. -/
def DataEntries (value : Bytes) (es : List AttributeListEntry) : Prop :=
  es.Perm ((attributeListEntries value).filter fun e => e.typeCode = 0x80 ∧ e.name = none) ∧
  es.Pairwise fun a b => a.lowestVcn ≤ b.lowestVcn

/-- The number of the segment that an entry refers to (the low 48 bits of the reference). -/
def entryNumber (e : AttributeListEntry) : Nat := e.segmentReference % 2 ^ 48

/-- `cs` are the segments of the entries `es`, in the file itself. -/
inductive Segments (f : FragmentedFile) (size : Nat) : List AttributeListEntry → List FileRecordSegment → Prop
  | nil : Segments f size [] []
  | cons {e es c cs} (head : SegmentAt f size (entryNumber e) c) (tail : Segments f size es cs) :
      Segments f size (e :: es) (c :: cs)

/-- `f` is the `$MFT` file of the volume at `off`: `first` is the segment where the boot sector says that the
`$MFT` file begins, `children` are the further segments of its file record, and the data runs of `f` are the
connected extents of its unnamed `$DATA` attribute in all these segments. -/
structure IsMft (volume : Bytes) (off : Nat) (f : FragmentedFile) (boot : Bytes) (spc bps frs cluster : Nat)
    (first : FileRecordSegment) (children : List FileRecordSegment) : Prop where
  boot_eq : boot = slice volume off (off + 512)
  boot_ok : BootSector.init boot = .ok boot
  spc_eq : BootSector.sectorsPerCluster boot = .ok spc
  bps_eq : BootSector.bytesPerSector boot = .ok bps
  frs_eq : BootSector.fileRecordSegmentSize boot = .ok frs
  cluster_eq : BootSector.firstMftCluster boot = .ok cluster
  volume_eq : f.volume = volume
  offset_eq : f.volumeOffset = off
  size_eq : f.clusterSize = spc * bps
  first_eq : FileRecordSegment.init (slice volume (off + cluster * f.clusterSize) (off + cluster * f.clusterSize + frs)) true
    (some 0) = .ok first
  /-- All the attribute records can be read. -/
  readable : ∀ s ∈ first :: children, s.attributesGen.err = none
  /-- The data runs are those of the connected extents. -/
  runs : ∃ exts, exts.Perm (Verif.Spec.FileRecord.extentsOf ((first :: children).flatMap (·.attributesGen.items)) none 0x80) ∧
    exts ≠ [] ∧ Verif.Spec.FileRecord.Connected 0 exts f.dataRuns
  /-- The file size is the one that the first extent in the first segment records. -/
  size : ∃ before, ∃ e : Extent, ∃ after, Verif.Spec.FileRecord.extentsOf first.attributesGen.items none 0x80 = before ++ e :: after ∧
    (∀ x ∈ before, x.lowestVcn ≠ 0) ∧ e.lowestVcn = 0 ∧ e.fileSize = (f.fileSize : Int)
  /-- Without an attribute list there are no more segments. -/
  noList : (∀ a ∈ first.attributesGen.items, a.typeCode ≠ 0x20) → children = []
  /-- With one, they are those of its entries for the unnamed `$DATA` attribute except the first entry (which
  must refer to the segment 0), and they are found in the file `f` itself. -/
  list : ∀ before a after, first.attributesGen.items = before ++ a :: after → (∀ x ∈ before, x.typeCode ≠ 0x20) →
    a.typeCode = 0x20 → ∃ value e es, ListBytes volume off f.clusterSize value a ∧ DataEntries value (e :: es) ∧
      entryNumber e = 0 ∧ (es = [] ∧ children = [] ∨ ∃ size, SegmentSize f size ∧ Segments f size es children)

/-- The bytes of the file before `b` are in the clusters of the extents in the segments `ss`. -/
def Covers (f : FragmentedFile) (ss : List FileRecordSegment) (b : Nat) : Prop :=
  ∃ runs, Verif.Spec.FileRecord.Connected 0 (Verif.Spec.FileRecord.extentsOf (ss.flatMap (·.attributesGen.items)) none 0x80) runs ∧
    b ≤ (clusterMap runs).length * f.clusterSize

/-- Each of the segments `cs` (of the entries `es`) is in the clusters of the extents in the segments before it, which
are `ss` and the earlier ones in `cs`. -/
inductive Reachable (f : FragmentedFile) (size : Nat) : List FileRecordSegment → List AttributeListEntry → List FileRecordSegment → Prop
  | nil {ss} : Reachable f size ss [] []
  | cons {ss e es c cs} (head : Covers f ss ((entryNumber e + 1) * size)) (inside : (entryNumber e + 1) * size ≤ f.fileSize)
      (tail : Reachable f size (ss ++ [c]) es cs) : Reachable f size ss (e :: es) (c :: cs)

/-- The segment is that of a volume of a supported version (3.1 or later 3.x): the first attribute that is a volume
information is resident and says so. -/
def SupportedVersion (s : FileRecordSegment) : Prop :=
  ∃ before name v after minor, s.attributesGen.items = before ++ .resident 0x70 name v :: after ∧
    (∀ a ∈ before, a.typeCode ≠ 0x70 ∧ a.typeCode ≠ 0xA0) ∧ v[8]? = some 3 ∧ v[9]? = some minor ∧ minor ≠ 0

/-- The segments of the `$MFT` file can be found one after the other, each in the clusters that the earlier ones
describe: what a reader needs who knows only the first segment. -/
structure Bootstraps (volume : Bytes) (off : Nat) (f : FragmentedFile) (first : FileRecordSegment)
    (children : List FileRecordSegment) : Prop where
  /-- The extents are stored in their order, and none of them is empty. -/
  order : Verif.Spec.FileRecord.Connected 0
    (Verif.Spec.FileRecord.extentsOf ((first :: children).flatMap (·.attributesGen.items)) none 0x80) f.dataRuns
  nonempty : ∀ e ∈ Verif.Spec.FileRecord.extentsOf ((first :: children).flatMap (·.attributesGen.items)) none 0x80,
    decodeMappingPairs e.mappingPairs ≠ .ok []
  /-- The clusters of the file are in the volume. -/
  inVolume : ∀ p, p < (clusterMap f.dataRuns).length * f.clusterSize → (fileByte f p).isSome
  /-- If there is an attribute list, it is in the volume too, its entries for the unnamed `$DATA` attribute have
  distinct lowest VCNs, the first refers to the segment 0 and the others to `children`, which can be reached. -/
  list : ∀ before a after, first.attributesGen.items = before ++ a :: after → (∀ x ∈ before, x.typeCode ≠ 0x20) →
    a.typeCode = 0x20 → ∃ value e es, ListBytes volume off f.clusterSize value a ∧
      (∀ t n pairs lo hi fs runs, a = .nonresident t n pairs lo hi fs runs →
        ∀ p, p < (clusterMap runs).length * f.clusterSize →
          (fileByte ⟨volume, off, f.clusterSize, runs, fs.toNat⟩ p).isSome) ∧
      DataEntries value (e :: es) ∧ (e :: es).Pairwise (fun a b => a.lowestVcn ≠ b.lowestVcn) ∧ entryNumber e = 0 ∧
      (es = [] ∧ children = [] ∨ ∃ size version, SegmentSize f size ∧ Segments f size es children ∧
        Reachable f size [first] es children ∧ SegmentAt f size 3 version ∧ SupportedVersion version ∧
        Covers f [first] (4 * size) ∧ 4 * size ≤ f.fileSize)

end Verif.Spec.FileSystem
