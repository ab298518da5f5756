/-
Model of dfir_ntfs/addons/exFAT.py:316-603: `BR`, the boot region.

The getters that are not used by the parser (the partition offset, the serial number, the percentage in use, the
reserved area, the boot code, the extended boot sectors and the OEM parameters) are in `ExFAT/Fields.lean`.
-/
import Verif.Basic.Exc
namespace Verif.ExFAT

/-- dfir_ntfs/addons/exFAT.py:316-327: A `BR` object. -/
structure BR where
  buf : Bytes
  deriving DecidableEq, Repr

namespace BR

/-- dfir_ntfs/addons/exFAT.py:334-337 `get_bs_fsname`. -/
def fsName (b : BR) : Bytes := slice b.buf 3 11

/-- dfir_ntfs/addons/exFAT.py:339-342 `get_mustbezero`. -/
def mustBeZero (b : BR) : Bytes := slice b.buf 11 64

/-- dfir_ntfs/addons/exFAT.py:349-352 `get_volumelength`. -/
def volumeLength (b : BR) : Nat := u64 b.buf 72

/-- dfir_ntfs/addons/exFAT.py:354-357 `get_fatoffset`. -/
def fatOffset (b : BR) : Nat := u32 b.buf 80

/-- dfir_ntfs/addons/exFAT.py:359-362 `get_fatlength`. -/
def fatLength (b : BR) : Nat := u32 b.buf 84

/-- dfir_ntfs/addons/exFAT.py:364-367 `get_clusterheapoffset`. -/
def clusterHeapOffset (b : BR) : Nat := u32 b.buf 88

/-- dfir_ntfs/addons/exFAT.py:369-372 `get_clustercount`. -/
def clusterCount (b : BR) : Nat := u32 b.buf 92

/-- dfir_ntfs/addons/exFAT.py:374-377 `get_firstclusterofrootdirectory`. -/
def firstClusterOfRootDirectory (b : BR) : Nat := u32 b.buf 96

/-- dfir_ntfs/addons/exFAT.py:384-390 `get_filesystemrevision`: (major, minor). -/
def fileSystemRevision (b : BR) : Nat × Nat := (u8 b.buf 105, u8 b.buf 104)

/-- dfir_ntfs/addons/exFAT.py:392-402 `get_volumeflags`: the active FAT (the other flags are not used). -/
def activeFat (b : BR) : Bool := decide (u16 b.buf 106 &&& 1 > 0)

/-- dfir_ntfs/addons/exFAT.py:404-412 `get_bytespersector`. -/
def bytesPerSector (b : BR) : Except Exc Nat :=
  if u8 b.buf 108 < 9 ∨ u8 b.buf 108 > 12 then .error .BootRegionException else .ok (1 <<< u8 b.buf 108)

/-- dfir_ntfs/addons/exFAT.py:414-423 `get_sectorspercluster`. -/
def sectorsPerCluster (b : BR) : Except Exc Nat :=
  if (u8 b.buf 109 : Int) > 25 - (u8 b.buf 108 : Int) then .error .BootRegionException else .ok (1 <<< u8 b.buf 109)

/-- dfir_ntfs/addons/exFAT.py:425-428 `get_numberoffats`. -/
def numberOfFats (b : BR) : Nat := u8 b.buf 110

/-- dfir_ntfs/addons/exFAT.py:454-457 `get_bs_signature`. -/
def signature (b : BR) : Bytes := slice b.buf 510 512

/-- dfir_ntfs/addons/exFAT.py:490-503 `get_checksum`. -/
def checksum (b : BR) : Except Exc Nat := do
  let offset := (← b.bytesPerSector) * 11
  let checksum1 := slice b.buf offset (offset + 4)
  let checksum2 := slice b.buf (offset + 4) (offset + 8)
  let checksum3 := slice b.buf (offset + 8) (offset + 12)
  if checksum1 ≠ checksum2 ∨ checksum1 ≠ checksum3 then throw .BootRegionException
  unpackLE 4 checksum1

/-- dfir_ntfs/addons/exFAT.py:513-518: one round of the checksum. -/
def checksumStep (checksum : Nat) (byte : UInt8) : Nat :=
  let rotated := if checksum &&& 1 > 0 then 0x80000000 ||| (checksum >>> 1) else checksum >>> 1
  (rotated + byte.toNat) &&& 0xFFFFFFFF

/-- dfir_ntfs/addons/exFAT.py:508-520: the loop, from the byte with the index `idx`. -/
def checksumLoop : Bytes → (idx checksum : Nat) → Nat
  | [], _, checksum => checksum
  | byte :: rest, idx, checksum =>
    if idx ∈ [106, 107, 112] then checksumLoop rest (idx + 1) checksum                    -- 510
    else checksumLoop rest (idx + 1) (checksumStep checksum byte)

/-- dfir_ntfs/addons/exFAT.py:505-520 `calculate_checksum`: an IndexError when the buffer has fewer bytes. -/
def calculateChecksum (b : BR) : Except Exc Nat := do
  let n := (← b.bytesPerSector) * 11
  if b.buf.length < n then throw .IndexError
  return checksumLoop (b.buf.take n) 0 0

/-- dfir_ntfs/addons/exFAT.py:538-539: the checksum of the region. -/
def checkChecksum (b : BR) : Except Exc Unit := do
  if (← b.checksum) ≠ (← b.calculateChecksum) then throw .BootRegionChecksumException

/-- dfir_ntfs/addons/exFAT.py:541-600: the numbers of the region. -/
def checkNumbers (b : BR) : Except Exc Unit := do
  let bytesPerSector ← b.bytesPerSector
  if b.volumeLength * bytesPerSector < 1024 * 1024 then throw .BootRegionException        -- 544
  if b.fatOffset < 24 then throw .BootRegionException                                     -- 551
  if (b.fatOffset : Int) > (b.clusterHeapOffset : Int) - ((b.fatLength * b.numberOfFats : Nat) : Int) then throw .BootRegionException -- 554
  let sectorsPerCluster ← b.sectorsPerCluster                                             -- 558
  if b.fatLength * bytesPerSector < (b.clusterCount + 2) * 4 then throw .BootRegionException -- 561
  if ((b.fatLength * b.numberOfFats : Nat) : Int) > (b.clusterHeapOffset : Int) - (b.fatOffset : Int) then throw .BootRegionException -- 564
  if b.clusterHeapOffset < b.fatOffset + b.fatLength * b.numberOfFats then throw .BootRegionException -- 567
  if b.clusterHeapOffset > b.clusterCount * sectorsPerCluster then throw .BootRegionException -- 570
  if b.clusterCount > 0xFFFFFFF5 then throw .BootRegionException                          -- 573
  if ((b.clusterCount * sectorsPerCluster : Nat) : Int) > (b.volumeLength : Int) - (b.clusterHeapOffset : Int) then throw .BootRegionException -- 576
  if b.firstClusterOfRootDirectory < 2 then throw .BootRegionException                    -- 580
  if b.firstClusterOfRootDirectory > b.clusterCount + 1 then throw .BootRegionException   -- 583
  let (major, minor) := b.fileSystemRevision
  if major = 0 ∨ major > 99 ∨ minor > 99 then throw .BootRegionException                  -- 587
  if major > 1 then throw .NotImplementedError                                            -- 590
  if b.numberOfFats ≠ 1 ∧ b.numberOfFats ≠ 2 then throw .BootRegionException              -- 593
  if b.activeFat = true ∧ b.numberOfFats ≠ 2 then throw .BootRegionException              -- 597

/-- dfir_ntfs/addons/exFAT.py:522-600 `validate`, with the relaxed checks that the constructor uses. -/
def validate (b : BR) : Except Exc Unit := do
  if b.fsName ≠ [0x45, 0x58, 0x46, 0x41, 0x54, 0x20, 0x20, 0x20] then throw .BootRegionException -- 525
  if b.signature ≠ [0x55, 0xAA] then throw .BootRegionException                           -- 528
  if b.mustBeZero ≠ List.replicate 53 0 then throw .BootRegionException                   -- 535
  b.checkChecksum
  b.checkNumbers

end BR

/-- dfir_ntfs/addons/exFAT.py:321-327 `BR.__init__`. -/
def openBR (buf : Bytes) : Except Exc BR := do
  if buf.length < 12 * 512 ∨ buf.length % 512 ≠ 0 then throw .BootRegionException
  BR.validate ⟨buf⟩
  return ⟨buf⟩

end Verif.ExFAT
