/-
The table of directory indexes (used to state C99).
-/
import Verif.Spec.MftTable
import Verif.Model.Scripts.Index
namespace Verif.Spec.IndexTable
open Verif.MFT Verif.Attributes Verif.Spec.Parser Verif.Spec.MftTable Verif.Scripts

/-- The names of the columns. -/
def header : Row := ["Source", "MFT reference number", "Is directory", "Path", "$FN M timestamp", "$FN A timestamp", "$FN C timestamp",
  "$FN E timestamp", "File size"].map fun s => .str (Str.ofString s)

/-- An attribute is an index allocation of file names, with these data runs and this size. -/
def IsIndex (m : MergedAttribute) (runs : List Run) (size : Int) : Prop :=
  (∃ n pairs lo hi, m = .stored (.nonresident 0xA0 (some n) pairs lo hi size runs) ∧ utf16Decode n = Str.ofString "$I30") ∨
  ∃ hi, m = .merged 0xA0 (some (Str.ofString "$I30")) hi size runs

/-- The number and the sequence number of a directory. -/
abbrev Own := Nat × Nat

/-- The directory in which a file name of the index of the directory `own` is put: this directory (its first path), when this is the parent
that the file name records; otherwise, the path that a lookup of `own` gives. -/
def directoryOf (p : MFT.Parser) (own : Own) (paths : List (Str × Bytes)) (v : Bytes) : Option Str :=
  if parentOf v = encodeFileRecordSegmentReference own.1 own.2 then paths.head?.map (·.1) else pathBy p own.1 own.2

/-- A row: the source, the reference, and what the file name records. -/
def nameRow (p : MFT.Parser) (own : Own) (paths : List (Str × Bytes)) (source : String) (reference : Cell) (v : Bytes) : Row :=
  [.str (Str.ofString source), reference, yesNo (nameIsDirectory v), .str (inDirectory (directoryOf p own paths v) (nameOf v))] ++ nameTimes v ++
  [.int (nameSize v)]

/-- The row of an entry of an index: it has a file name of more than 66 bytes. -/
def entryRow (p : MFT.Parser) (own : Own) (paths : List (Str × Bytes)) (e : IndexEntry) : Option Row :=
  match entryName e.raw with
  | none => none
  | some v => if 66 < v.length then some (nameRow p own paths "Index record" (.int (leNat (slice e.raw 0 8))) v) else none

/-- The row of a file name in the slack space. -/
def remnantRow (p : MFT.Parser) (own : Own) (paths : List (Str × Bytes)) : Carved → Option Row
  | .fileName v => some (nameRow p own paths "Index slack" (.str (Str.ofString "?")) v)
  | .partialName _ => none

/-- The bytes of a nonresident attribute from a position on: as many as asked for, or less at the end (C12 says which ones). -/
def bytesAt (f : FragmentedFile) (position count : Nat) : Except Exc Bytes := (f.read position (some count)).1

/-- The size of the buffers of an index allocation, from the number of entries in the update sequence array of the first buffer: two sectors or
more, at most 119808 bytes; and the first buffer is valid (C25). -/
structure HasBuffers (f : FragmentedFile) (size : Nat) : Prop where
  header : ∃ raw, bytesAt f 4 4 = .ok raw ∧ raw.length = 4 ∧ size = (leNat (slice raw 2 4) - 1) * 512
  range : 1024 ≤ size ∧ size ≤ 119808
  first : ∃ raw b, bytesAt f 0 size = .ok raw ∧ raw.length = size ∧ verifyAndUnprotectIndexSectors raw = .ok (some b)

/-- The first buffer is not there, has no plausible size or is not valid. -/
def NoBuffers (f : FragmentedFile) : Prop :=
  ∃ raw, bytesAt f 4 4 = .ok raw ∧ (raw.length = 4 → ∀ size, size = (leNat (slice raw 2 4) - 1) * 512 → 1024 ≤ size → size ≤ 119808 →
    ∃ buffer, bytesAt f 0 size = .ok buffer ∧ (buffer.length = size → verifyAndUnprotectIndexSectors buffer = .ok none))

/-- The valid buffers of this size, from the `i`-th one on, with the protection removed, up to the first one that is not whole. -/
inductive BuffersFrom (f : FragmentedFile) (size : Nat) : Nat → List Bytes → Prop
  | last (i raw) : bytesAt f (i * size) size = .ok raw → raw.length ≠ size → BuffersFrom f size i []
  | valid (i raw b bs) : bytesAt f (i * size) size = .ok raw → raw.length = size → verifyAndUnprotectIndexSectors raw = .ok (some b) →
      BuffersFrom f size (i + 1) bs → BuffersFrom f size i (b :: bs)
  | invalid (i raw bs) : bytesAt f (i * size) size = .ok raw → raw.length = size → verifyAndUnprotectIndexSectors raw = .ok none →
      BuffersFrom f size (i + 1) bs → BuffersFrom f size i bs

/-- The same, up to some buffer. -/
inductive SomeBuffersFrom (f : FragmentedFile) (size : Nat) : Nat → List Bytes → Prop
  | stop (i) : SomeBuffersFrom f size i []
  | valid (i raw b bs) : bytesAt f (i * size) size = .ok raw → raw.length = size → verifyAndUnprotectIndexSectors raw = .ok (some b) →
      SomeBuffersFrom f size (i + 1) bs → SomeBuffersFrom f size i (b :: bs)
  | invalid (i raw bs) : bytesAt f (i * size) size = .ok raw → raw.length = size → verifyAndUnprotectIndexSectors raw = .ok none →
      SomeBuffersFrom f size (i + 1) bs → SomeBuffersFrom f size i bs

/-- The valid buffers of an index allocation. -/
def IsBuffers (f : FragmentedFile) (buffers : List Bytes) : Prop :=
  (∃ size, HasBuffers f size ∧ BuffersFrom f size 0 buffers) ∨ (NoBuffers f ∧ buffers = [])

/-- Valid buffers of an index allocation, from the first one on. -/
def IsSomeBuffers (f : FragmentedFile) (buffers : List Bytes) : Prop :=
  (∃ size, HasBuffers f size ∧ SomeBuffersFrom f size 0 buffers) ∨ buffers = []

/-- What follows the used parts of the buffers (C96). -/
def unused (buffers : List Bytes) : List Bytes :=
  (buffers.map fun b => b.drop (24 + leNat (slice b 28 32))).filter fun s => decide (8 < s.length)

/-- The rows of the entries in some buffers (C25). -/
def entriesBlock (p : MFT.Parser) (own : Own) (paths : List (Str × Bytes)) (buffers : List Bytes) : List Row :=
  buffers.flatMap fun b => (indexBufferEntries b).items.filterMap (entryRow p own paths)

/-- The rows of an index allocation: of the entries in its buffers, then of what is found in their slack space (C21). -/
def streamBlock (p : MFT.Parser) (own : Own) (paths : List (Str × Bytes)) (buffers : List Bytes) : List Row :=
  entriesBlock p own paths buffers ++ (carve (unused buffers) false).filterMap (remnantRow p own paths)

/-- The rows of some attributes, in order. -/
inductive AttributeRows (volume : Bytes) (volumeOffset clusterSize : Nat) (p : MFT.Parser) (own : Own) (paths : List (Str × Bytes)) :
    List MergedAttribute → List Row → Prop
  | done : AttributeRows volume volumeOffset clusterSize p own paths [] []
  | other (m ms rows) : (∀ runs size, ¬ IsIndex m runs size) → AttributeRows volume volumeOffset clusterSize p own paths ms rows →
      AttributeRows volume volumeOffset clusterSize p own paths (m :: ms) rows
  | index (m ms rows runs size buffers) : IsIndex m runs size → IsBuffers ⟨volume, volumeOffset, clusterSize, runs, size.toNat⟩ buffers →
      AttributeRows volume volumeOffset clusterSize p own paths ms rows →
      AttributeRows volume volumeOffset clusterSize p own paths (m :: ms) (streamBlock p own paths buffers ++ rows)

/-- The first rows of some attributes, in order: those of some attributes, then the first ones of the next attribute: the first rows of the
entries, or all of them and the first ones of the slack space. -/
inductive SomeAttributeRows (volume : Bytes) (volumeOffset clusterSize : Nat) (p : MFT.Parser) (own : Own) (paths : List (Str × Bytes)) :
    List MergedAttribute → List Row → Prop
  | stop (ms) : SomeAttributeRows volume volumeOffset clusterSize p own paths ms []
  | other (m ms rows) : (∀ runs size, ¬ IsIndex m runs size) → SomeAttributeRows volume volumeOffset clusterSize p own paths ms rows →
      SomeAttributeRows volume volumeOffset clusterSize p own paths (m :: ms) rows
  | index (m ms rows runs size buffers) : IsIndex m runs size → IsBuffers ⟨volume, volumeOffset, clusterSize, runs, size.toNat⟩ buffers →
      SomeAttributeRows volume volumeOffset clusterSize p own paths ms rows →
      SomeAttributeRows volume volumeOffset clusterSize p own paths (m :: ms) (streamBlock p own paths buffers ++ rows)
  | entries (m ms rows runs size buffers) : IsIndex m runs size → IsSomeBuffers ⟨volume, volumeOffset, clusterSize, runs, size.toNat⟩ buffers →
      rows <+: entriesBlock p own paths buffers → SomeAttributeRows volume volumeOffset clusterSize p own paths (m :: ms) rows
  | remnants (m ms rows runs size buffers) : IsIndex m runs size → IsBuffers ⟨volume, volumeOffset, clusterSize, runs, size.toNat⟩ buffers →
      rows <+: streamBlock p own paths buffers → SomeAttributeRows volume volumeOffset clusterSize p own paths (m :: ms) rows

/-- The rows of a file record: none when an exception of the file table is raised for its paths. -/
def IsBlock (volume : Bytes) (volumeOffset clusterSize : Nat) (mft : Bytes) (p : MFT.Parser) (r : FileRecord) (rows : List Row) : Prop :=
  (rows = [] ∧ ∃ e, isMftExc e = true ∧ p.buildFullPaths r = some (.error e)) ∨
  ∃ paths n, p.buildFullPaths r = some (.ok paths) ∧ HasNumber mft p.size r n ∧
    AttributeRows volume volumeOffset clusterSize p (n, sequenceOf r.base) paths r.mergedAttributes.items rows

/-- The first rows of a file record. -/
def BeginsBlock (volume : Bytes) (volumeOffset clusterSize : Nat) (mft : Bytes) (p : MFT.Parser) (r : FileRecord) (rows : List Row) : Prop :=
  rows = [] ∨ ∃ paths n, p.buildFullPaths r = some (.ok paths) ∧ HasNumber mft p.size r n ∧
    SomeAttributeRows volume volumeOffset clusterSize p (n, sequenceOf r.base) paths r.mergedAttributes.items rows

/-- The indexes of a file record can be listed: the attributes are readable, the buffers of the index allocations are readable and the entries in
these buffers are complete. -/
structure Listable (volume : Bytes) (volumeOffset clusterSize : Nat) (r : FileRecord) : Prop where
  readable : r.mergedAttributes.err = none
  indexes : ∀ m ∈ r.mergedAttributes.items, ∀ runs size, IsIndex m runs size →
    ∃ buffers, IsBuffers ⟨volume, volumeOffset, clusterSize, runs, size.toNat⟩ buffers ∧ ∀ b ∈ buffers, (indexBufferEntries b).err = none

end Verif.Spec.IndexTable
