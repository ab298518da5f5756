/-
What it means that a GPT header at some place of a disk is valid, which partitions a GPT and a chain
of EBRs describe.  All offsets are absolute.
-/
import Verif.Model.PartitionTable
namespace Verif.Spec.PartitionTable
open Verif.PartitionTable

/-- The bytes of the GPT signature, `EFI PART`. -/
def gptSignature : Bytes := [0x45, 0x46, 0x49, 0x20, 0x50, 0x41, 0x52, 0x54]

/-- There is a sector with a GPT signature at `off`. -/
def SignedAt (disk : Bytes) (ss off : Nat) : Prop := off + ss ≤ disk.length ∧ slice disk off (off + 8) = gptSignature

instance (disk : Bytes) (ss off : Nat) : Decidable (SignedAt disk ss off) := by unfold SignedAt; infer_instance

/-- A GPT header that describes `h` lies in the sector at `off`: the header is there completely and is
signed, its checksum (over the header with the checksum field cleared) and the checksum of the
partition array match, it says where it is, the other copy is recorded elsewhere, the array lies
between the header sector and the last sector as far as its start is concerned and inside the disk. -/
structure ConsistentAt (disk : Bytes) (ss off : Nat) (h : GPTHeader) : Prop where
  signed : SignedAt disk ss off
  revision : u32 disk (off + 8) ≠ 0
  sizeMin : 92 ≤ u32 disk (off + 12)
  sizeMax : u32 disk (off + 12) ≤ ss
  headerCrc : crc32 (slice disk off (off + 16) ++ zeros 4 ++ slice disk (off + 20) (off + u32 disk (off + 12)))
    = u32 disk (off + 16)
  place : u64 disk (off + 24) * ss = off
  otherCopy : u64 disk (off + 32) ≠ u64 disk (off + 24) ∧ u64 disk (off + 32) ≠ 0
  firstUsable : h.firstUsableLba = u64 disk (off + 40) ∧ 16384 + 2 * ss < (h.firstUsableLba + 1) * ss
  lastUsable : h.lastUsableLba = u64 disk (off + 48)
  guid : h.diskGuid = slice disk (off + 56) (off + 72)
  arrayLba : h.partitionEntryLba = u64 disk (off + 72) ∧ 1 < h.partitionEntryLba ∧
    h.partitionEntryLba * ss + ss < disk.length
  entryNumber : h.numberOfPartitionEntries = u32 disk (off + 80)
  entrySize : h.sizeOfPartitionEntry = u32 disk (off + 84) ∧ 0 < h.sizeOfPartitionEntry ∧ 128 ∣ h.sizeOfPartitionEntry
  arrayInside : h.partitionEntryLba * ss + h.numberOfPartitionEntries * h.sizeOfPartitionEntry ≤ disk.length
  arrayCrc : h.partitionEntryCrc32 = u32 disk (off + 88) ∧
    crc32 (slice disk (h.partitionEntryLba * ss)
      (h.partitionEntryLba * ss + h.numberOfPartitionEntries * h.sizeOfPartitionEntry)) = h.partitionEntryCrc32

/-- Some GPT header lies at `off`. -/
def ValidAt (disk : Bytes) (ss off : Nat) : Prop := ∃ h, ConsistentAt disk ss off h

/-- The partition described by the 128 bytes at `o`; none if its type is all zeros. -/
def partitionAt (disk : Bytes) (o : Nat) : Option GPTPartition :=
  if slice disk o (o + 16) = zeros 16 then none
  else some {
    partitionTypeGuid := slice disk o (o + 16)
    uniquePartitionGuid := slice disk (o + 16) (o + 32)
    startingLba := u64 disk (o + 32)
    endingLba := u64 disk (o + 40)
    attributes := u64 disk (o + 48)
    partitionName :=
      match utf16DecodeStrict (slice disk (o + 56) (o + 128)) with
      | some name => name.takeWhile (· ≠ 0)
      | none => [] }

/-- The slot of an MBR-style partition table at `o`; none if its type is zero. -/
def slotAt (disk : Bytes) (o : Nat) : Option MBRPartition :=
  if u8 disk (o + 4) = 0 then none
  else some ⟨u8 disk o, slice disk (o + 1) (o + 4), u8 disk (o + 4), slice disk (o + 5) (o + 8), u32 disk (o + 8), u32 disk (o + 12)⟩

/-- An EBR lies in the sector `lba`. -/
def IsEbr (disk : Bytes) (ss lba : Nat) : Prop := lba * ss + 512 ≤ disk.length ∧ u16 disk (lba * ss + 510) = 0xAA55

instance (disk : Bytes) (ss lba : Nat) : Decidable (IsEbr disk ss lba) := by unfold IsEbr; infer_instance

/-- The logical partition in the first slot of the EBR in the sector `lba` (its place is relative to
the EBR); none if there is no EBR or the slot is unused. -/
def logicalAt (disk : Bytes) (ss lba : Nat) : Option EBRPartition :=
  if IsEbr disk ss lba ∧ u8 disk (lba * ss + 450) ≠ 0 then
    some ⟨u8 disk (lba * ss + 446), u8 disk (lba * ss + 450), lba + u32 disk (lba * ss + 454), u32 disk (lba * ss + 458)⟩
  else none

/-- The place of the next EBR of a chain that starts at `first`, if the EBR in the sector `lba`
continues it (the place is relative to the start of the chain; zero ends the chain). -/
def nextEbr (disk : Bytes) (ss first lba : Nat) : Option Nat :=
  if IsEbr disk ss lba ∧ u32 disk (lba * ss + 470) ≠ 0 then some (first + u32 disk (lba * ss + 470)) else none

/-- `lbas` are the sectors of the chain of EBRs from `lba` on, up to its end or to the first sector
that was visited before (`seen`). -/
inductive Chain (disk : Bytes) (ss first : Nat) : List Nat → Nat → List Nat → Prop where
  | again {seen lba} : lba ∈ seen → Chain disk ss first seen lba []
  | last {seen lba} : lba ∉ seen → nextEbr disk ss first lba = none → Chain disk ss first seen lba [lba]
  | next {seen lba lba' lbas} : lba ∉ seen → nextEbr disk ss first lba = some lba' →
      Chain disk ss first (lba :: seen) lba' lbas → Chain disk ss first seen lba (lba :: lbas)

/-- The EBR sectors of all chains (one per extended partition, given by its start), in order. -/
inductive Chains (disk : Bytes) (ss : Nat) : List Nat → List Nat → List Nat → Prop where
  | nil {seen} : Chains disk ss seen [] []
  | cons {seen first firsts lbas lbas'} : Chain disk ss first seen first lbas →
      Chains disk ss (lbas.reverse ++ seen) firsts lbas' → Chains disk ss seen (first :: firsts) (lbas ++ lbas')

end Verif.Spec.PartitionTable
