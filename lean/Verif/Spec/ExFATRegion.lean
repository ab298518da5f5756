/-
Specification of the boot region of exFAT: the fields at their offsets in the exFAT specification.
-/
import Verif.Basic.Checksum
namespace Verif.Spec.ExFAT

/-- Bytes per sector: a power of two, the exponent is stored. -/
def sectorSize (region : Bytes) : Nat := 2 ^ u8 region 108

/-- Sectors per cluster. -/
def clusterSectors (region : Bytes) : Nat := 2 ^ u8 region 109

/-- Sectors of the volume. -/
def volumeSectors (region : Bytes) : Nat := u64 region 72

/-- The first sector of the (first) table. -/
def tableStart (region : Bytes) : Nat := u32 region 80

/-- Sectors of one table. -/
def tableSectors (region : Bytes) : Nat := u32 region 84

/-- The first sector of the clusters. -/
def heapStart (region : Bytes) : Nat := u32 region 88

/-- The count of clusters; they have the numbers from 2. -/
def clusterCount (region : Bytes) : Nat := u32 region 92

/-- The first cluster of the root directory. -/
def rootCluster (region : Bytes) : Nat := u32 region 96

/-- The count of tables. -/
def tableCount (region : Bytes) : Nat := u8 region 110

/-- The second table is the active one. -/
def secondActive (region : Bytes) : Prop := u16 region 106 % 2 = 1

instance (region : Bytes) : Decidable (secondActive region) := by unfold secondActive; infer_instance

/-- The bytes under the checksum: the first eleven sectors without the flags (106 and 107) and the percentage in
use (112). -/
def covered (region : Bytes) : Bytes :=
  slice region 0 106 ++ slice region 108 112 ++ slice region 113 (11 * sectorSize region)

/-- The checksum: 32 bits, rotated to the right before each byte is added. -/
def regionChecksum (region : Bytes) : Nat := rotateSum 31 (covered region)

/-- A consistent boot region. -/
structure Consistent (region : Bytes) : Prop where
  name : slice region 3 11 = "EXFAT   ".toList.map fun c => UInt8.ofNat c.toNat
  signature : slice region 510 512 = [0x55, 0xAA]
  zeros : ∀ i, 11 ≤ i → i < 64 → region[i]? = some 0
  sector : 9 ≤ u8 region 108 ∧ u8 region 108 ≤ 12
  cluster : u8 region 108 + u8 region 109 ≤ 25
  /-- The checksum is stored at the beginning of the twelfth sector (the first three copies are checked). -/
  complete : 11 * sectorSize region + 12 ≤ region.length
  checksum : ∀ i, i < 3 → u32 region (11 * sectorSize region + 4 * i) = regionChecksum region
  volume : 2 ^ 20 ≤ volumeSectors region * sectorSize region
  tables : tableCount region = 1 ∨ (tableCount region = 2)
  active : secondActive region → tableCount region = 2
  /-- The tables come after the two boot regions of twelve sectors, and before the clusters. -/
  tableAfter : 24 ≤ tableStart region
  tableBefore : tableStart region + tableCount region * tableSectors region ≤ heapStart region
  /-- A table has four bytes for each cluster and for two more numbers. -/
  tableSize : 4 * (clusterCount region + 2) ≤ tableSectors region * sectorSize region
  count : clusterCount region ≤ 0xFFFFFFF5
  /-- The clusters are inside of the volume. -/
  inside : heapStart region + clusterCount region * clusterSectors region ≤ volumeSectors region
  /-- (The code also asks for this.) -/
  heap : heapStart region ≤ clusterCount region * clusterSectors region
  root : 2 ≤ rootCluster region ∧ rootCluster region ≤ clusterCount region + 1
  version : u8 region 105 = 1 ∧ u8 region 104 ≤ 99

end Verif.Spec.ExFAT
