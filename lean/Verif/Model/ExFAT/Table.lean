/-
Model of dfir_ntfs/addons/exFAT.py:605-692 (`FAT`) and 1020-1045 (`Bitmap`).
-/
import Verif.Basic.Exc
namespace Verif.ExFAT

/-- dfir_ntfs/addons/exFAT.py:605-623: A `FAT` object. -/
structure Table where
  object : Bytes
  offset : Nat
  size : Nat
  lastValidCluster : Nat

/-- dfir_ntfs/addons/exFAT.py:613-623 `FAT.__init__`. -/
def openTable (object : Bytes) (offset size lastValidCluster : Nat) : Except Exc Table :=
  if offset > 0 ∧ offset % 512 ≠ 0 then .error .FileAllocationTableException
  else if size < 512 ∨ size % 512 ≠ 0 then .error .FileAllocationTableException
  else .ok ⟨object, offset, size, lastValidCluster⟩

/-- dfir_ntfs/addons/exFAT.py:625-638 `FAT.get_element`. -/
def Table.getElement (t : Table) (number : Nat) : Except Exc Nat :=
  if number * 4 + 4 > t.size ∨ number > t.lastValidCluster then .error .FileAllocationTableException
  else
    match seekRead t.object (t.offset + number * 4) 4 with
    | .error e => .error e
    | .ok raw =>
      if raw.length ≠ 4 then .error .FileAllocationTableException
      else .ok (leNat raw)

/-- dfir_ntfs/addons/exFAT.py:640-644 `FAT.get_media_type`. -/
def Table.mediaType (t : Table) : Except Exc Nat := (t.getElement 0).map (· &&& 0xFF)

/-- dfir_ntfs/addons/exFAT.py:30-31 `EXFAT_EOC` and `EXFAT_BAD`. -/
def eoc : Nat := 0xFFFFFFFF
/-- dfir_ntfs/addons/exFAT.py:31. -/
def bad : Nat := 0xFFFFFFF7

/-- dfir_ntfs/addons/exFAT.py:665-689: the loop of `chain`; `chain` is the list so far, which ends with `curr`.
The bound `fuel` on the number of rounds is for Lean; `none` means that it was reached. -/
def Table.chainLoop (t : Table) : Nat → List Nat → Nat → Option (Except Exc (List (Option Nat)))
  | 0, _, _ => none
  | fuel + 1, chain, curr =>
    match t.getElement curr with
    | .error e => some (.error e)
    | .ok next =>
      if next ∈ chain then some (.ok (chain.map some))                                    -- 669
      else if next = eoc then some (.ok (chain.map some))                                 -- 672
      else if next = bad then some (.ok (chain.map some ++ [none]))                       -- 675
      else if next = 0 then some (.ok (chain.map some))                                   -- 679
      else if next = 1 then some (.ok (chain.map some))                                   -- 682
      else t.chainLoop fuel (chain ++ [next]) next

/-- dfir_ntfs/addons/exFAT.py:646-689 `FAT.chain`, with a bound on the number of rounds. -/
def Table.chainFuel (t : Table) (fuel firstCluster : Nat) : Option (Except Exc (List (Option Nat))) :=
  if firstCluster = 0 then some (.ok [])
  else if firstCluster = 1 then some (.ok [])
  else if firstCluster = bad then some (.error .FileAllocationTableException)
  else t.chainLoop fuel [firstCluster] firstCluster

/-- dfir_ntfs/addons/exFAT.py:646-689 `FAT.chain`.  The theorem `C68_terminates` says that the bound that is used
here is never reached (the error stands for the result in that case). -/
def Table.chain (t : Table) (firstCluster : Nat) : Except Exc (List (Option Nat)) :=
  (t.chainFuel (t.lastValidCluster + 2) firstCluster).getD (.error .RuntimeError)

/-- A `Bitmap` object (dfir_ntfs/addons/exFAT.py:1020-1028). -/
structure Bitmap where
  buf : Bytes
  lastValidCluster : Nat

/-- dfir_ntfs/addons/exFAT.py:1030-1045 `Bitmap.is_allocated`: `none` is `None`. -/
def Bitmap.isAllocated (b : Bitmap) (cluster : Nat) : Except Exc (Option Bool) :=
  if cluster < 2 then .ok none
  else if cluster > b.lastValidCluster then .ok none
  else
    match index b.buf ((cluster - 2) / 8) with
    | .error e => .error e
    | .ok byte => .ok (some (decide ((byte >>> ((cluster - 2) % 8)) &&& 1 > 0)))

end Verif.ExFAT
