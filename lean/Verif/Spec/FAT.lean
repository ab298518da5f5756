/-
Specifications for FAT12/16/32 volumes.
-/
import Verif.Model.FAT.Parser
import Verif.Spec.Chain
namespace Verif.Spec.FAT
open Verif.FAT

/-- The bits of an entry of a table. -/
def width : FatType → Nat
  | .fat12 => 12
  | .fat16 => 16
  | .fat32 => 32

/-- The bits of an entry that are a number (four bits of a FAT32 entry are reserved). -/
def significant : FatType → Nat
  | .fat12 => 12
  | .fat16 => 16
  | .fat32 => 28

/-- A table is one long little-endian number whose digits are the entries: no gap, no overlap. -/
def pack (width : Nat) : List Nat → Nat
  | [] => 0
  | v :: vs => v + 2 ^ width * pack width vs

/-- The bytes of the table inside its file. -/
def tableBytes (t : Table) : Bytes := slice t.object t.offset (t.offset + t.size)

/-- The whole table is in the file, at an offset that a file can have. -/
def Complete (t : Table) : Prop := t.offset + t.size ≤ t.object.length ∧ t.offset + t.size < 2 ^ 63

/-- Entry `n` has all its bits inside the table, and is not past the last cluster of the volume. -/
def InBounds (t : Table) (n : Nat) : Prop := (n + 1) * width t.type ≤ 8 * t.size ∧ (n : Int) ≤ t.lastValidCluster

instance (t : Table) (n : Nat) : Decidable (InBounds t n) := by unfold InBounds; infer_instance

/-- The marks that end a chain: the end marks, "free" and "reserved". -/
def isEnd : FatType → Nat → Prop
  | .fat12, v => v < 2 ∨ 0xFF8 ≤ v
  | .fat16, v => v < 2 ∨ 0xFFF8 ≤ v
  | .fat32, v => v < 2 ∨ 0xFFFFFF8 ≤ v

instance (type : FatType) : DecidablePred (isEnd type) := by
  intro v; cases type <;> (unfold isEnd; infer_instance)

/-- The mark of a bad cluster. -/
def badMark : FatType → Nat
  | .fat12 => 0xFF7
  | .fat16 => 0xFFF7
  | .fat32 => 0xFFFFFF7

/-- The place of a cluster relative to the volume: the data area starts with cluster 2. -/
def clusterPlace (v : Volume) (c : Nat) : Nat := v.dataAreaOffset + (c - 2) * v.clusterSize

/-- The bytes of an item of a chain: the cluster, or zeros for a bad one. -/
def clusterBytes (v : Volume) : Option Nat → Bytes
  | none => List.replicate v.clusterSize 0
  | some c => slice v.object (v.offset + clusterPlace v c) (v.offset + clusterPlace v c + v.clusterSize)

/-- The cluster is inside the volume (when its size is given) and inside the file. -/
def Readable (v : Volume) : Option Nat → Prop
  | none => True
  | some c => (∀ n, v.size = some n → clusterPlace v c + v.clusterSize ≤ n) ∧
      v.offset + clusterPlace v c + v.clusterSize ≤ v.object.length ∧ v.offset + clusterPlace v c < 2 ^ 63

/-- The items of a chain that a file of the given size needs. -/
def needed (v : Volume) (fileSize : Option Nat) (l : List (Option Nat)) : List (Option Nat) :=
  match fileSize with
  | none => l
  | some n => l.take ((n + v.clusterSize - 1) / v.clusterSize)

/-- Cut to the size of the file. -/
def cut (fileSize : Option Nat) (b : Bytes) : Bytes :=
  match fileSize with
  | none => b
  | some n => b.take n

/-! ### Boot sectors, by the offsets of the fields in the FAT specification -/

/-- Bytes per sector. -/
def ValidSectorSize (b : Bytes) : Prop := u16 b 11 ∈ [512, 1024, 2048, 4096]

/-- Sectors per cluster; zero stands for 256. -/
def sectorsPerCluster (b : Bytes) : Nat := if u8 b 13 = 0 then 256 else u8 b 13

/-- A power of two. -/
def ValidSectorsPerCluster (b : Bytes) : Prop := ∃ k, k ≤ 8 ∧ sectorsPerCluster b = 2 ^ k

/-- The count of sectors: of 16 bits, of 32 bits if that is zero, or (FAT32 with extended fields) of 64. -/
def sectorCount (b : Bytes) : Option Nat :=
  if u16 b 19 ≠ 0 then some (u16 b 19)
  else if u32 b 32 ≠ 0 then some (u32 b 32)
  else if u16 b 22 = 0 ∧ u8 b 66 = 0x29 then some (u64 b 82)
  else none

/-- The sectors before the data area: the reserved ones, the tables, and the root directory of
FAT12/16. -/
def sectorsBeforeData (b : Bytes) : Nat :=
  if u16 b 22 ≠ 0 then u16 b 14 + u8 b 16 * u16 b 22 + (u16 b 17 * 32 + u16 b 11 - 1) / u16 b 11
  else u16 b 14 + u8 b 16 * u32 b 36

/-- The count of clusters: whole clusters after the sectors above. -/
def clusterCount (b : Bytes) (sectors : Nat) : Int := ((sectors : Int) - sectorsBeforeData b) / (sectorsPerCluster b : Nat)

/-- The fields that the count of clusters is computed from are usable. -/
def ValidFields (b : Bytes) (sectors : Nat) : Prop :=
  sectorCount b = some sectors ∧ u16 b 14 ≠ 0 ∧ u8 b 16 ≠ 0 ∧ ValidSectorsPerCluster b ∧
  (u16 b 22 ≠ 0 → ValidSectorSize b) ∧ (u16 b 22 = 0 → u32 b 36 ≠ 0)

/-- The sectors of one table. -/
def tableSectors (b : Bytes) : Nat := if u16 b 22 ≠ 0 then u16 b 22 else u32 b 36

/-- The number of the table in use: the first one, or, when a FAT32 volume does not mirror its tables, the
active one (if there is a table with that number). -/
def activeTable (b : Bytes) : Nat :=
  if u16 b 22 = 0 ∧ u16 b 40 / 128 % 2 = 1 ∧ u16 b 40 % 16 < u8 b 16 then u16 b 40 % 16 else 0

/-- A sector of 512 bytes with a boot signature, or with a jump at its beginning. -/
def LooksBootable (b : Bytes) : Prop := slice b 510 512 = [0x55, 0xAA] ∨ u8 b 0 = 0xE9 ∨ u8 b 0 = 0xEB

end Verif.Spec.FAT
