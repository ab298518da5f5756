/-
Model of dfir_ntfs/addons/FAT.py:908-1094: `FAT`, the file allocation table.
-/
import Verif.Basic.Exc
namespace Verif.FAT

/-- The type of a table (dfir_ntfs/addons/FAT.py:921: other numbers are a ValueError). -/
inductive FatType where
  | fat12 | fat16 | fat32
  deriving DecidableEq, Repr

/-- dfir_ntfs/addons/FAT.py:37-44, 931-942: `fat_eoc`. -/
def FatType.eoc : FatType → Nat
  | .fat12 => 0x0FF8
  | .fat16 => 0xFFF8
  | .fat32 => 0x0FFFFFF8

/-- dfir_ntfs/addons/FAT.py:37-44, 931-942: `fat_bad`. -/
def FatType.bad : FatType → Nat
  | .fat12 => 0x0FF7
  | .fat16 => 0xFFF7
  | .fat32 => 0x0FFFFFF7

/-- dfir_ntfs/addons/FAT.py:908-948: A `FAT` object; the last valid cluster can be negative for an impossible count of sectors. -/
structure Table where
  object : Bytes
  offset : Nat
  size : Nat
  lastValidCluster : Int
  type : FatType

/-- dfir_ntfs/addons/FAT.py:921-948 `FAT.__init__`. -/
def openTable (object : Bytes) (offset size : Nat) (lastValidCluster : Int) (type : FatType) : Except Exc Table :=
  if offset > 0 ∧ offset % 512 ≠ 0 then .error .FileAllocationTableException
  else if size < 512 ∨ size % 512 ≠ 0 then .error .FileAllocationTableException
  else .ok ⟨object, offset, size, lastValidCluster, type⟩

/-- dfir_ntfs/addons/FAT.py:953-969: an element of 2 or 4 bytes. -/
def Table.wide (t : Table) (elementSize number : Nat) : Except Exc Nat :=
  if number * elementSize + elementSize > t.size ∨ (number : Int) > t.lastValidCluster then .error .FileAllocationTableException
  else
    match seekRead t.object (t.offset + number * elementSize) elementSize with
    | .error e => .error e
    | .ok raw =>
      if raw.length ≠ elementSize then .error .FileAllocationTableException
      else .ok (leNat raw)

/-- dfir_ntfs/addons/FAT.py:950-983 `FAT.get_element`. -/
def Table.getElement (t : Table) (number : Nat) : Except Exc Nat :=
  match t.type with
  | .fat32 =>
    match t.wide 4 number with
    | .error e => .error e
    | .ok v => .ok (v &&& 0x0FFFFFFF)
  | .fat16 => t.wide 2 number
  | .fat12 =>
    if number + number / 2 + 2 > t.size ∨ (number : Int) > t.lastValidCluster then .error .FileAllocationTableException
    else
      match seekRead t.object (t.offset + (number + number / 2)) 2 with
      | .error e => .error e
      | .ok raw =>
        if raw.length ≠ 2 then .error .FileAllocationTableException
        else if number % 2 = 0 then .ok (leNat raw &&& 0x0FFF)
        else .ok (leNat raw >>> 4)

/-- dfir_ntfs/addons/FAT.py:1059-1082: the loop of `chain`; `chain` is the list so far, which ends with
`curr`.  The bound `fuel` on the number of rounds is for Lean; `none` means that it was reached. -/
def Table.chainLoop (t : Table) : Nat → List Nat → Nat → Option (Except Exc (List (Option Nat)))
  | 0, _, _ => none
  | fuel + 1, chain, curr =>
    match t.getElement curr with
    | .error e => some (.error e)
    | .ok next =>
      if next ∈ chain then some (.ok (chain.map some))                                    -- 1064
      else if next ≥ t.type.eoc then some (.ok (chain.map some))                          -- 1067
      else if next = t.type.bad then some (.ok (chain.map some ++ [none]))                -- 1070
      else if next = 0 then some (.ok (chain.map some))                                   -- 1074
      else if next = 1 then some (.ok (chain.map some))                                   -- 1077
      else t.chainLoop fuel (chain ++ [next]) next

/-- dfir_ntfs/addons/FAT.py:1041-1084 `FAT.chain`, with a bound on the number of rounds. -/
def Table.chainFuel (t : Table) (fuel firstCluster : Nat) : Option (Except Exc (List (Option Nat))) :=
  if firstCluster = 0 then some (.ok [])
  else if firstCluster = 1 then some (.ok [])
  else if firstCluster = t.type.bad then some (.error .FileAllocationTableException)
  else t.chainLoop fuel [firstCluster] firstCluster

/-- dfir_ntfs/addons/FAT.py:1041-1084 `FAT.chain`.  The theorem `C56_terminates` says that the bound that is
used here is never reached (the error stands for the result in that case). -/
def Table.chain (t : Table) (firstCluster : Nat) : Except Exc (List (Option Nat)) :=
  (t.chainFuel (t.lastValidCluster.toNat + 2) firstCluster).getD (.error .RuntimeError)

/-- dfir_ntfs/addons/FAT.py:1086-1092 `FAT.is_allocated`: `none` is `None`. -/
def Table.isAllocated (t : Table) (cluster : Nat) : Except Exc (Option Bool) :=
  match t.getElement cluster with
  | .ok v => .ok (some (decide (v ≠ 0)))
  | .error e => if e = .FileAllocationTableException then .ok none else .error e

/-- dfir_ntfs/addons/FAT.py:985-989 `FAT.get_bpb_media`. -/
def Table.media (t : Table) : Except Exc Nat := (t.getElement 0).map (· &&& 0xFF)

end Verif.FAT
