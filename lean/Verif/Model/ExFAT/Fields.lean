/-
Model of the fields of the boot region of exFAT that the parser itself does not use: dfir_ntfs/addons/exFAT.py:329-488.
-/
import Verif.Model.ExFAT.BootRegion
namespace Verif.ExFAT.BR

/-- dfir_ntfs/addons/exFAT.py:329-332 `get_bs_jmpboot`. -/
def jmpBoot (b : BR) : Bytes := slice b.buf 0 3
/-- dfir_ntfs/addons/exFAT.py:344-347 `get_partitionoffset`. -/
def partitionOffset (b : BR) : Nat := u64 b.buf 64
/-- dfir_ntfs/addons/exFAT.py:379-382 `get_volumeserialnumber`. -/
def volumeSerialNumber (b : BR) : Nat := u32 b.buf 100
/-- dfir_ntfs/addons/exFAT.py:392-402 `get_volumeflags`: the active FAT, dirty, media failure, clear to zero. -/
def volumeFlags (b : BR) : Bool × Bool × Bool × Bool :=
  (decide (u16 b.buf 106 &&& 1 > 0), decide ((u16 b.buf 106 >>> 1) &&& 1 > 0), decide ((u16 b.buf 106 >>> 2) &&& 1 > 0),
   decide ((u16 b.buf 106 >>> 3) &&& 1 > 0))
/-- dfir_ntfs/addons/exFAT.py:430-433 `get_driveselect`. -/
def driveSelect (b : BR) : Nat := u8 b.buf 111
/-- dfir_ntfs/addons/exFAT.py:435-442 `get_percentinuse`: `none` is `None`. -/
def percentInUse (b : BR) : Option Nat := if u8 b.buf 112 > 100 ∨ u8 b.buf 112 = 0xFF then none else some (u8 b.buf 112)
/-- dfir_ntfs/addons/exFAT.py:444-447 `get_reserved`. -/
def reserved (b : BR) : Bytes := slice b.buf 113 120
/-- dfir_ntfs/addons/exFAT.py:449-452 `get_bs_bootcode`. -/
def bootCode (b : BR) : Bytes := slice b.buf 120 510
/-- dfir_ntfs/addons/exFAT.py:459-466 `get_ebs_signature`. -/
def ebsSignature (b : BR) (sectorNumber : Int) : Except Exc Bytes :=
  if sectorNumber < 1 ∨ sectorNumber > 8 then .error .ValueError
  else
    match b.bytesPerSector with
    | .error e => .error e
    | .ok bytesPerSector =>
      let offset := bytesPerSector * sectorNumber.toNat
      .ok (slice b.buf (offset + 508) (offset + 512))
/-- dfir_ntfs/addons/exFAT.py:468-474 `get_oem_guid`: the 16 bytes of the GUID; `uuid.UUID` refuses another length. -/
def oemGuid (b : BR) : Except Exc Bytes :=
  match b.bytesPerSector with
  | .error e => .error e
  | .ok bytesPerSector =>
    let offset := bytesPerSector * 10
    let guidRaw := slice b.buf offset (offset + 16)
    if guidRaw.length ≠ 16 then .error .ValueError else .ok guidRaw
/-- dfir_ntfs/addons/exFAT.py:77: the bytes of OEM_FLASH_PARAMETERS_GUID. -/
def flashGuid : Bytes := [0x46, 0x7E, 0x0C, 0x0A, 0x99, 0x33, 0x21, 0x40, 0x90, 0xC8, 0xFA, 0x6D, 0x38, 0x9C, 0x4B, 0xA2]
/-- dfir_ntfs/addons/exFAT.py:476-488 `get_oem_flash_parameters`: `none` stands for the tuple of `None`s. -/
def oemFlashParameters (b : BR) : Except Exc (Option (List Nat)) :=
  match b.oemGuid with
  | .error e => .error e
  | .ok guid =>
    if guid ≠ flashGuid then .ok none
    else
      match b.bytesPerSector with
      | .error e => .error e
      | .ok bytesPerSector =>
        let p := slice b.buf (bytesPerSector * 10 + 16) (bytesPerSector * 10 + 44)
        if p.length ≠ 28 then .error .StructError
        else .ok (some [u32 p 0, u32 p 4, u32 p 8, u32 p 12, u32 p 16, u32 p 20, u32 p 24])

end Verif.ExFAT.BR
