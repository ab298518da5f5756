/-
The layout of the boot sectors of FAT and exFAT volumes, as lists of fields (used to state C112 and C113).
-/
import Verif.Basic.Bytes
namespace Verif.Spec.BootFields

/-- A boot sector of FAT, by the field.  `code` fills it. -/
structure Boot where
  jump : Bytes
  oem : Bytes
  bytesPerSector : Nat
  sectorsPerCluster : Nat
  reservedSectors : Nat
  tables : Nat
  rootEntries : Nat
  sectors16 : Nat
  media : Nat
  tableSectors16 : Nat
  sectorsPerTrack : Nat
  heads : Nat
  hidden : Nat
  sectors32 : Nat
  drive : Nat
  flags : Nat
  bootSignature : Nat
  volumeId : Nat
  label : Bytes
  typeText : Bytes
  code : Bytes

/-- What is in a boot sector of FAT32 in addition. -/
structure Boot32 where
  tableSectors32 : Nat
  extFlags : Nat
  version : Nat
  rootCluster : Nat
  infoSector : Nat
  backupSector : Nat
  reserved : Bytes

/-- The part that is the same for all types. -/
def Boot.common (b : Boot) : List Bytes :=
  [b.jump, b.oem, natLE 2 b.bytesPerSector, natLE 1 b.sectorsPerCluster, natLE 2 b.reservedSectors, natLE 1 b.tables, natLE 2 b.rootEntries,
   natLE 2 b.sectors16, natLE 1 b.media, natLE 2 b.tableSectors16, natLE 2 b.sectorsPerTrack, natLE 2 b.heads, natLE 4 b.hidden,
   natLE 4 b.sectors32]

/-- The extended part. -/
def Boot.extended (b : Boot) : List Bytes :=
  [natLE 1 b.drive, natLE 1 b.flags, natLE 1 b.bootSignature, natLE 4 b.volumeId, b.label, b.typeText, b.code, [0x55, 0xAA]]

/-- A boot sector of FAT12 or FAT16. -/
def Boot.bytes16 (b : Boot) : Bytes := (b.common ++ b.extended).flatten

/-- A boot sector of FAT32. -/
def Boot.bytes32 (b : Boot) (x : Boot32) : Bytes :=
  (b.common ++ ([natLE 4 x.tableSectors32, natLE 2 x.extFlags, natLE 2 x.version, natLE 4 x.rootCluster, natLE 2 x.infoSector,
    natLE 2 x.backupSector, x.reserved] ++ b.extended)).flatten

/-- The values fit into the fields. -/
structure Boot.Fits (b : Boot) (codeLength : Nat) : Prop where
  jump : b.jump.length = 3
  oem : b.oem.length = 8
  bytesPerSector : b.bytesPerSector < 2 ^ 16
  sectorsPerCluster : b.sectorsPerCluster < 2 ^ 8
  reservedSectors : b.reservedSectors < 2 ^ 16
  tables : b.tables < 2 ^ 8
  rootEntries : b.rootEntries < 2 ^ 16
  sectors16 : b.sectors16 < 2 ^ 16
  media : b.media < 2 ^ 8
  tableSectors16 : b.tableSectors16 < 2 ^ 16
  sectorsPerTrack : b.sectorsPerTrack < 2 ^ 16
  heads : b.heads < 2 ^ 16
  hidden : b.hidden < 2 ^ 32
  sectors32 : b.sectors32 < 2 ^ 32
  drive : b.drive < 2 ^ 8
  flags : b.flags < 2 ^ 8
  bootSignature : b.bootSignature < 2 ^ 8
  volumeId : b.volumeId < 2 ^ 32
  label : b.label.length = 11
  typeText : b.typeText.length = 8
  code : b.code.length = codeLength

structure Boot32.Fits (x : Boot32) : Prop where
  tableSectors32 : x.tableSectors32 < 2 ^ 32
  extFlags : x.extFlags < 2 ^ 16
  version : x.version < 2 ^ 16
  rootCluster : x.rootCluster < 2 ^ 32
  infoSector : x.infoSector < 2 ^ 16
  backupSector : x.backupSector < 2 ^ 16
  reserved : x.reserved.length = 12

/-- The information sector of FAT32. -/
def infoBytes (reserved1 : Bytes) (free next : Nat) (reserved2 : Bytes) : Bytes :=
  [natLE 4 0x41615252, reserved1, natLE 4 0x61417272, natLE 4 free, natLE 4 next, reserved2, natLE 4 0xAA550000].flatten

/-- The boot sector of exFAT, by the field (the name `EXFAT   `, the zeros and the signature are fixed). -/
structure BootEx where
  jump : Bytes
  partitionOffset : Nat
  volumeLength : Nat
  tableOffset : Nat
  tableLength : Nat
  heapOffset : Nat
  clusters : Nat
  rootCluster : Nat
  serial : Nat
  minor : Nat
  major : Nat
  flags : Nat
  sectorShift : Nat
  clusterShift : Nat
  tables : Nat
  drive : Nat
  percent : Nat
  reserved : Bytes
  code : Bytes

def BootEx.fields (b : BootEx) : List Bytes :=
  [b.jump, [0x45, 0x58, 0x46, 0x41, 0x54, 0x20, 0x20, 0x20], zeros 53, natLE 8 b.partitionOffset, natLE 8 b.volumeLength, natLE 4 b.tableOffset, natLE 4 b.tableLength,
   natLE 4 b.heapOffset, natLE 4 b.clusters, natLE 4 b.rootCluster, natLE 4 b.serial, natLE 1 b.minor, natLE 1 b.major, natLE 2 b.flags,
   natLE 1 b.sectorShift, natLE 1 b.clusterShift, natLE 1 b.tables, natLE 1 b.drive, natLE 1 b.percent, b.reserved, b.code, [0x55, 0xAA]]

structure BootEx.Fits (b : BootEx) : Prop where
  jump : b.jump.length = 3
  partitionOffset : b.partitionOffset < 2 ^ 64
  volumeLength : b.volumeLength < 2 ^ 64
  tableOffset : b.tableOffset < 2 ^ 32
  tableLength : b.tableLength < 2 ^ 32
  heapOffset : b.heapOffset < 2 ^ 32
  clusters : b.clusters < 2 ^ 32
  rootCluster : b.rootCluster < 2 ^ 32
  serial : b.serial < 2 ^ 32
  minor : b.minor < 2 ^ 8
  major : b.major < 2 ^ 8
  flags : b.flags < 2 ^ 16
  sectorShift : b.sectorShift < 2 ^ 8
  clusterShift : b.clusterShift < 2 ^ 8
  tables : b.tables < 2 ^ 8
  drive : b.drive < 2 ^ 8
  percent : b.percent < 2 ^ 8
  reserved : b.reserved.length = 7
  code : b.code.length = 390

/-- A boot region: the boot sector, the rest of its sector, eight extended boot sectors, the OEM parameters, a reserved sector, and the
checksums. -/
structure Region where
  boot : BootEx
  padding : Bytes
  extended : List Bytes
  oem : Bytes
  spare : Bytes
  checksums : Bytes

def Region.bytes (r : Region) : Bytes := (r.boot.fields ++ [r.padding] ++ r.extended ++ [r.oem, r.spare, r.checksums]).flatten

/-- All sectors have `size` bytes. -/
structure Region.Fits (r : Region) (size : Nat) : Prop where
  boot : r.boot.Fits
  shift : size = 2 ^ r.boot.sectorShift ∧ 9 ≤ r.boot.sectorShift ∧ r.boot.sectorShift ≤ 12
  padding : r.padding.length = size - 512
  count : r.extended.length = 8
  extended : ∀ s ∈ r.extended, s.length = size
  oem : r.oem.length = size
  spare : r.spare.length = size
  checksums : r.checksums.length = size

end Verif.Spec.BootFields
