/-
The boot sector of NTFS, the header of a file record segment, the header of an index buffer and the master boot record, as lists of fields
(used to state C120).
-/
import Verif.Basic.Bytes
namespace Verif.Spec.Headers

/-- The boot sector of NTFS, by the field.  The three sizes are bytes that are read in more than one way (see below). -/
structure Boot where
  jump : Bytes
  bytesPerSector : Nat
  sectorsPerCluster : Nat
  unused : Bytes
  sectors : Nat
  mftCluster : Nat
  mirrorCluster : Nat
  segmentSize : Nat
  gap1 : Bytes
  indexSize : Nat
  gap2 : Bytes
  serial : Nat
  checksum : Nat
  code : Bytes
  signature : Nat

/-- `NTFS    `. -/
def ntfsName : Bytes := [0x4E, 0x54, 0x46, 0x53, 0x20, 0x20, 0x20, 0x20]

def Boot.bytes (b : Boot) : Bytes :=
  [b.jump, ntfsName, natLE 2 b.bytesPerSector, natLE 1 b.sectorsPerCluster, b.unused, natLE 8 b.sectors, natLE 8 b.mftCluster,
   natLE 8 b.mirrorCluster, natLE 1 b.segmentSize, b.gap1, natLE 1 b.indexSize, b.gap2, natLE 8 b.serial, natLE 4 b.checksum, b.code,
   natLE 2 b.signature].flatten

/-- The values fit into the fields. -/
structure Boot.Fits (b : Boot) : Prop where
  jump : b.jump.length = 3
  bytesPerSector : b.bytesPerSector < 2 ^ 16
  sectorsPerCluster : b.sectorsPerCluster < 2 ^ 8
  unused : b.unused.length = 26
  sectors : b.sectors < 2 ^ 64
  mftCluster : b.mftCluster < 2 ^ 64
  mirrorCluster : b.mirrorCluster < 2 ^ 64
  segmentSize : b.segmentSize < 2 ^ 8
  gap1 : b.gap1.length = 3
  indexSize : b.indexSize < 2 ^ 8
  gap2 : b.gap2.length = 3
  serial : b.serial < 2 ^ 64
  checksum : b.checksum < 2 ^ 32
  code : b.code.length = 426
  signature : b.signature < 2 ^ 16

/-- The number of sectors in a cluster that a byte stands for: up to 128 the number itself, above that a power of two with the negated byte
(as a signed number) for its exponent. -/
def clusterSectors (v : Nat) : Nat := if v ≤ 128 then v else 2 ^ (256 - v)

/-- The size that a byte stands for: a number of clusters of the size `cluster`, or above 127 a power of two as above. -/
def recordSize (v cluster : Nat) : Nat := if v < 128 then v * cluster else 2 ^ (256 - v)

/-- The header of a file record segment, by the field, with what follows it.  The last field is in use when the update sequence array is not
in its place. -/
structure Segment where
  signature : Bytes
  arrayOffset : Nat
  arrayCount : Nat
  lsn : Nat
  sequence : Nat
  references : Nat
  firstAttribute : Nat
  flags : Nat
  used : Nat
  size : Nat
  base : Nat
  nextInstance : Nat
  numberHigh : Nat
  numberLow : Nat
  rest : Bytes

def Segment.bytes (s : Segment) : Bytes :=
  [s.signature, natLE 2 s.arrayOffset, natLE 2 s.arrayCount, natLE 8 s.lsn, natLE 2 s.sequence, natLE 2 s.references, natLE 2 s.firstAttribute,
   natLE 2 s.flags, natLE 4 s.used, natLE 4 s.size, natLE 8 s.base, natLE 2 s.nextInstance, natLE 2 s.numberHigh, natLE 4 s.numberLow,
   s.rest].flatten

structure Segment.Fits (s : Segment) : Prop where
  signature : s.signature.length = 4
  arrayOffset : s.arrayOffset < 2 ^ 16
  arrayCount : s.arrayCount < 2 ^ 16
  lsn : s.lsn < 2 ^ 64
  sequence : s.sequence < 2 ^ 16
  references : s.references < 2 ^ 16
  firstAttribute : s.firstAttribute < 2 ^ 16
  flags : s.flags < 2 ^ 16
  used : s.used < 2 ^ 32
  size : s.size < 2 ^ 32
  base : s.base < 2 ^ 64
  numberHigh : s.numberHigh < 2 ^ 16
  numberLow : s.numberLow < 2 ^ 32

/-- The header of an index buffer, by the field, with what follows it. -/
structure Buffer where
  signature : Bytes
  arrayOffset : Nat
  arrayCount : Nat
  lsn : Nat
  block : Nat
  firstEntry : Nat
  firstFree : Nat
  available : Nat
  flags : Nat
  rest : Bytes

def Buffer.bytes (b : Buffer) : Bytes :=
  [b.signature, natLE 2 b.arrayOffset, natLE 2 b.arrayCount, natLE 8 b.lsn, natLE 8 b.block, natLE 4 b.firstEntry, natLE 4 b.firstFree,
   natLE 4 b.available, natLE 1 b.flags, b.rest].flatten

structure Buffer.Fits (b : Buffer) : Prop where
  signature : b.signature.length = 4
  lsn : b.lsn < 2 ^ 64
  block : b.block < 2 ^ 64
  firstEntry : b.firstEntry < 2 ^ 32
  firstFree : b.firstFree < 2 ^ 32
  available : b.available < 2 ^ 32
  flags : b.flags < 2 ^ 8

/-- The master boot record: its code, the signature of the disk, the table of partitions, and its own signature. -/
structure Mbr where
  code : Bytes
  diskSignature : Nat
  gap : Bytes
  table : Bytes
  signature : Nat

def Mbr.bytes (m : Mbr) : Bytes := [m.code, natLE 4 m.diskSignature, m.gap, m.table, natLE 2 m.signature].flatten

structure Mbr.Fits (m : Mbr) : Prop where
  code : m.code.length = 440
  diskSignature : m.diskSignature < 2 ^ 32
  gap : m.gap.length = 2
  table : m.table.length = 64
  signature : m.signature < 2 ^ 16

end Verif.Spec.Headers
