/-
Model of dfir_ntfs/addons/FAT.py:126-180 (the type of a file system) and 509-857 (`BSBPB`).

The count of sectors that is cached in `total_sectors` is only used to decide about a warning; warnings are
not modelled.
-/
import Verif.Basic.Exc
namespace Verif.FAT

/-- A `BSBPB` object: `bs_buf` and `is_fat32`. -/
structure BSBPB where
  buf : Bytes
  isFat32 : Bool
  deriving DecidableEq, Repr

namespace BSBPB

/-- dfir_ntfs/addons/FAT.py:555-562 `get_bpb_bytspersec`. -/
def bytsPerSec (b : BSBPB) : Except Exc Nat :=
  if u16 b.buf 11 ∉ [512, 1024, 2048, 4096] then .error .BootSectorException else .ok (u16 b.buf 11)

/-- dfir_ntfs/addons/FAT.py:564-584 `get_bpb_secperclus`. -/
def secPerClus (b : BSBPB) : Except Exc Nat :=
  let spc := if u8 b.buf 13 = 0 then 256 else u8 b.buf 13
  if spc ∉ [1, 2, 4, 8, 16, 32, 64, 128, 256] then .error .BootSectorException else .ok spc

/-- dfir_ntfs/addons/FAT.py:586-593 `get_bpb_rsvdseccnt`. -/
def rsvdSecCnt (b : BSBPB) : Except Exc Nat :=
  if u16 b.buf 14 = 0 then .error .BootSectorException else .ok (u16 b.buf 14)

/-- dfir_ntfs/addons/FAT.py:595-602 `get_bpb_numfats`. -/
def numFats (b : BSBPB) : Except Exc Nat :=
  if u8 b.buf 16 = 0 then .error .BootSectorException else .ok (u8 b.buf 16)

/-- dfir_ntfs/addons/FAT.py:604-611 `get_bpb_rootentcnt`. -/
def rootEntCnt (b : BSBPB) : Except Exc Nat :=
  if u16 b.buf 17 > 0 ∧ b.isFat32 = true then .error .BootSectorException else .ok (u16 b.buf 17)

/-- dfir_ntfs/addons/FAT.py:613-620 `get_bpb_totsec16`. -/
def totSec16 (b : BSBPB) : Nat := u16 b.buf 19

/-- dfir_ntfs/addons/FAT.py:631-638 `get_bpb_fatsz16`. -/
def fatSz16 (b : BSBPB) : Except Exc Nat :=
  if u16 b.buf 22 > 0 ∧ b.isFat32 = true then .error .BootSectorException else .ok (u16 b.buf 22)

/-- dfir_ntfs/addons/FAT.py:655-662 `get_bpb_totsec32`. -/
def totSec32 (b : BSBPB) : Nat := u32 b.buf 32

/-- dfir_ntfs/addons/FAT.py:669-679 `get_bpb_fatsz32`: `none` is `None`. -/
def fatSz32 (b : BSBPB) : Except Exc (Option Nat) :=
  if ¬ b.isFat32 then .ok none
  else if u32 b.buf 36 = 0 then .error .BootSectorException
  else .ok (some (u32 b.buf 36))

/-- dfir_ntfs/addons/FAT.py:681-692 `get_bpb_extflags`, for FAT32. -/
def extFlags (b : BSBPB) : Nat × Bool := (u16 b.buf 40 &&& 0xF, decide (u16 b.buf 40 &&& 0x80 > 0))

/-- dfir_ntfs/addons/FAT.py:694-706 `get_bpb_fsver`: the check. -/
def fsVer (b : BSBPB) : Except Exc Unit :=
  if ¬ b.isFat32 then .ok ()
  else if u16 b.buf 42 ≠ 0 then .error .NotImplementedError
  else .ok ()

/-- dfir_ntfs/addons/FAT.py:708-718 `get_bpb_rootclus`, for FAT32. -/
def rootClus (b : BSBPB) : Except Exc Nat :=
  if u32 b.buf 44 < 2 then .error .BootSectorException else .ok (u32 b.buf 44)

/-- dfir_ntfs/addons/FAT.py:780-786 `get_bs_bootsig`. -/
def bootSig (b : BSBPB) : Nat := if ¬ b.isFat32 then u8 b.buf 38 else u8 b.buf 66

/-- dfir_ntfs/addons/FAT.py:816-829 `get_bs_totsec64`. -/
def totSec64 (b : BSBPB) : Option Nat :=
  if b.isFat32 = true ∧ b.bootSig = 0x29 ∧ b.totSec16 = 0 ∧ b.totSec32 = 0 then some (u64 b.buf 82) else none

end BSBPB

/-- dfir_ntfs/addons/FAT.py:129-133: the total count of sectors, `none` is `None`. -/
def totalSectors (b : BSBPB) : Option Nat :=
  if b.totSec16 = 0 then if b.totSec32 = 0 then b.totSec64 else some b.totSec32
  else some b.totSec16

/-- dfir_ntfs/addons/FAT.py:137 and 142: `totsec - x`: a TypeError when `totsec` is `None`. -/
def totalMinus (totsec : Option Nat) (x : Nat) : Except Exc Int :=
  match totsec with
  | none => .error .TypeError
  | some t => .ok ((t : Int) - x)

/-- dfir_ntfs/addons/FAT.py:126-145 `GetCountOfClusters`.  The divisor is positive, for which the division of
Python and that of `Int` are the same (they round down). -/
def getCountOfClusters (b : BSBPB) : Except Exc Int := do
  let totsec := totalSectors b
  if (← b.fatSz16) > 0 then                                                               -- 135
    let rootDirSectors := ((← b.rootEntCnt) * 32 + (← b.bytsPerSec) - 1) / (← b.bytsPerSec)
    let dataSec ← totalMinus totsec ((← b.rsvdSecCnt) + (← b.numFats) * (← b.fatSz16) + rootDirSectors)
    return dataSec / (← b.secPerClus : Nat)
  else
    let rsvd ← b.rsvdSecCnt
    let fats ← b.numFats
    match ← b.fatSz32 with
    | none => throw .TypeError                                                            -- 142: numfats * None
    | some fatsz32 =>
      let dataSec ← totalMinus totsec (rsvd + fats * fatsz32)
      return dataSec / (← b.secPerClus : Nat)

/-- dfir_ntfs/addons/FAT.py:147-164 `IsFileSystem32`. -/
def isFileSystem32 (b : BSBPB) : Except Exc Bool := do
  if (← getCountOfClusters b) ≥ 65525 then return true
  else if (← b.fatSz16) = 0 then
    match ← b.fatSz32 with
    | none => throw .TypeError                                                            -- None > 0
    | some fatsz32 => return decide (fatsz32 > 0)
  else return false

/-- dfir_ntfs/addons/FAT.py:166-172 `IsFileSystem16`. -/
def isFileSystem16 (b : BSBPB) : Except Exc Bool := do
  let count ← getCountOfClusters b
  return decide (count < 65525 ∧ count ≥ 4085)

/-- dfir_ntfs/addons/FAT.py:174-180 `IsFileSystem12`. -/
def isFileSystem12 (b : BSBPB) : Except Exc Bool := do
  let count ← getCountOfClusters b
  return decide (count < 4085 ∧ count > 0)

/-- dfir_ntfs/addons/FAT.py:534-538: the FAT32 attempt. -/
def try32 (buf : Bytes) : Except Exc Unit := do
  if ← isFileSystem32 ⟨buf, true⟩ then BSBPB.fsVer ⟨buf, true⟩ else return ()

/-- dfir_ntfs/addons/FAT.py:539-543: the FAT12/16 attempt. -/
def try16 (buf : Bytes) : Except Exc Unit := do
  if ← isFileSystem16 ⟨buf, false⟩ then return ()
  else if ← isFileSystem12 ⟨buf, false⟩ then return ()
  else throw .BootSectorException

/-- dfir_ntfs/addons/FAT.py:518-543 `BSBPB.__init__` (`relaxed_checks` is its second argument). -/
def openBSBPB (buf : Bytes) (relaxedChecks : Bool) : Except Exc BSBPB :=
  if buf.length ≠ 512 then .error .BootSectorException                                    -- 521
  else if ¬ relaxedChecks ∧ slice buf 510 512 ≠ [0x55, 0xAA] ∧ u8 buf 0 ≠ 0xE9 ∧ u8 buf 0 ≠ 0xEB then .error .BootSectorException -- 525-531
  else
    match try32 buf with
    | .ok () => .ok ⟨buf, true⟩
    | .error e =>
      if e = .BootSectorException then
        match try16 buf with
        | .ok () => .ok ⟨buf, false⟩
        | .error e => .error e
      else .error e

/-- dfir_ntfs/addons/FAT.py:831-857 `fat_offset_and_size`. -/
def fatOffsetAndSize (b : BSBPB) : Except Exc (Nat × Nat × Int) := do
  if ¬ b.isFat32 then
    let offset := (← b.rsvdSecCnt) * (← b.bytsPerSec)
    let size := (← b.fatSz16) * (← b.bytsPerSec)
    return (offset, size, (← getCountOfClusters b) + 1)
  else
    let (active, disabled) := b.extFlags
    let fatNum ← (if ¬ disabled then pure 0 else do
      if active + 1 > (← b.numFats) then pure 0 else pure active : Except Exc Nat)
    let rsvd ← b.rsvdSecCnt
    match ← b.fatSz32 with
    | none => throw .TypeError
    | some fatsz32 =>
      let offset := (rsvd + fatsz32 * fatNum) * (← b.bytsPerSec)
      let size := fatsz32 * (← b.bytsPerSec)
      return (offset, size, (← getCountOfClusters b) + 1)

end Verif.FAT
