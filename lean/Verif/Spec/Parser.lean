/-
Master file tables: which segments there are, how file records are made of them, and how paths follow
the parents (used to state C16-C20).  A table is given by the contents of the `$MFT` file and the size
of a segment.
-/
import Verif.Model.MFT.Parser
namespace Verif.Spec.Parser
open Verif.MFT Verif.Attributes

/-- The valid segment number `k`, if there is one. -/
def segmentAt (file : Bytes) (size k : Nat) : Option FileRecordSegment :=
  (FileRecordSegment.init (slice file (k * size) (k * size + size)) true (some k)).toOption

/-- The fields of the header of a segment: the flags (bit 0: in use, bit 1: a directory), the sequence
number, and the reference to the base segment (zero in a base segment). -/
def flagsOf (f : FileRecordSegment) : Nat := leNat (slice f.data 22 24)
def sequenceOf (f : FileRecordSegment) : Nat := leNat (slice f.data 16 18)
def baseOf (f : FileRecordSegment) : Nat := leNat (slice f.data 32 40)

/-- The sequence number by which other records refer to a record: a deleted record's number has been
incremented since (skipping zero). -/
def knownSequence (f : FileRecordSegment) : Nat :=
  if (flagsOf f).testBit 0 then sequenceOf f
  else if sequenceOf f = 0 then 65535
  else if sequenceOf f = 1 then 1
  else sequenceOf f - 1

/-- The reference to a base segment that was read as number `k`: the number it records of itself, or `k`
when it has none (old versions of NTFS). -/
def ownReference (f : FileRecordSegment) (k : Nat) : Nat :=
  encodeFileRecordSegmentReference (if f.shortVersion then k else u16 f.data 42 * 2 ^ 32 + u32 f.data 44) (knownSequence f)

/-- The numbers of the complete segments that name `ref` as their base, in order. -/
def childrenOf (file : Bytes) (size ref : Nat) : List Nat :=
  (List.range (file.length / size)).filter fun k =>
    match segmentAt file size k with
    | some f => baseOf f != 0 && baseOf f == ref
    | none => false

/-- `IsRecord file size k s r`: `r` is the file record with the base segment `k` (known by the sequence
number `s`) and all the segments that name it as their base. -/
def IsRecord (file : Bytes) (size k s : Nat) (r : FileRecord) : Prop :=
  segmentAt file size k = some r.base ∧ baseOf r.base = 0 ∧ knownSequence r.base = s ∧
  r.children = (childrenOf file size (ownReference r.base k)).filterMap (segmentAt file size)

/-- The values of the resident `$FILE_NAME` attributes. -/
def fileNames (attrs : List AttributeRecord) : List Bytes :=
  attrs.filterMap fun a =>
    match a with
    | .resident 0x30 _ v => some v
    | _ => none

/-- A file name can be used for a path: its fixed fields are there. -/
def nameOf (v : Bytes) : Str := utf16Decode (slice v 66 (66 + 2 * u8 v 64))
def parentOf (v : Bytes) : Nat := leNat (slice v 0 8)
/-- Win32 names (bit 0) and POSIX names (0) are preferred to short names. -/
def isPreferred (v : Bytes) : Bool := u8 v 65 % 2 == 1 || u8 v 65 == 0

/-- The attributes of the record can all be read, and the fixed fields of every file name are there. -/
def Readable (r : FileRecord) : Prop :=
  r.attributes.err = none ∧ (∀ a ∈ r.attributes.items, ∀ n v, a ≠ .resident 0xA0 n v) ∧
  ∀ v ∈ fileNames r.attributes.items, 66 ≤ v.length

/-- The file name that stands for a directory in the paths of the files in it. -/
def directoryName (r : FileRecord) : Option Bytes :=
  match (fileNames r.attributes.items).find? isPreferred with
  | some v => some v
  | none => (fileNames r.attributes.items).head?

/-- The number and the sequence number of a reference. -/
def number (ref : Nat) : Nat := ref % 2 ^ 48
def sequence (ref : Nat) : Nat := ref / 2 ^ 48

/-- Going up from the reference `ref` through directories (their numbers, records and names, the nearest
first), none of them the root directory, one gets to the reference `top`. -/
inductive Chain (file : Bytes) (size : Nat) : Nat → List (Nat × FileRecord × Bytes) → Nat → Prop
  | here (ref : Nat) : Chain file size ref [] ref
  | up {ref : Nat} {r : FileRecord} {v : Bytes} {dirs : List (Nat × FileRecord × Bytes)} {top : Nat}
      (hrec : IsRecord file size (number ref) (sequence ref) r) (hroot : number ref ≠ 5) (hdir : (flagsOf r.base).testBit 1 = true)
      (hread : Readable r) (hname : directoryName r = some v) (hrest : Chain file size (parentOf v) dirs top) :
      Chain file size ref ((number ref, r, v) :: dirs) top

/-- `v` is the first file name of `r` that the comparison takes for the name `c`. -/
def FirstMatch (eq : Str → Str → Bool) (r : FileRecord) (c : Str) (v : Bytes) : Prop :=
  (fileNames r.attributes.items).find? (fun v => eq (nameOf v) c) = some v

/-- Going up from the reference `ref`, the components (the nearest first) are matched by the names of the
records, and then the root directory is reached. -/
inductive MatchesUp (file : Bytes) (size : Nat) (eq : Str → Str → Bool) : Nat → List Str → Prop
  | root {ref : Nat} (h : number ref = 5) : MatchesUp file size eq ref []
  | up {ref : Nat} {r : FileRecord} {v : Bytes} {c : Str} {rest : List Str}
      (hrec : IsRecord file size (number ref) (sequence ref) r) (hroot : number ref ≠ 5)
      (hname : FirstMatch eq r c v) (hrest : MatchesUp file size eq (parentOf v) rest) :
      MatchesUp file size eq ref (c :: rest)

end Verif.Spec.Parser
