/-
Model of what dfir_ntfs/addons/FAT.py says about the state of a volume: 1015-1039 (the marks in the table), 744-814 (those in the boot
sector and its other fields), 166-220 (the warning about the type), 862-900 (`FSINFO`) and 90-98 (attributes as text).
-/
import Verif.Model.FAT.Parser
import Verif.Model.Scripts.Text
namespace Verif.FAT

/-- dfir_ntfs/addons/FAT.py:29-33: the bits that are set on a clean volume, and on one without errors. -/
def cleanMask : FatType → Nat
  | .fat32 => 0x08000000
  | _ => 0x8000

/-- dfir_ntfs/addons/FAT.py:30-33. -/
def noErrorsMask : FatType → Nat
  | .fat32 => 0x04000000
  | _ => 0x4000

/-- dfir_ntfs/addons/FAT.py:1015-1026 `FAT.is_volume_dirty`: `none` is `None`. -/
def Table.isVolumeDirty (t : Table) : Except Exc (Option Bool) :=
  if t.type = .fat12 then .ok none
  else (t.getElement 1).map fun v => some (decide (v &&& cleanMask t.type = 0))

/-- dfir_ntfs/addons/FAT.py:1028-1039 `FAT.are_hard_errors_detected`. -/
def Table.hardErrors (t : Table) : Except Exc (Option Bool) :=
  if t.type = .fat12 then .ok none
  else (t.getElement 1).map fun v => some (decide (v &&& noErrorsMask t.type = 0))

/-! ### The boot sector -/

namespace BSBPB

/-- dfir_ntfs/addons/FAT.py:545-548 `get_bs_jmpboot`. -/
def jmpBoot (b : BSBPB) : Bytes := slice b.buf 0 3
/-- dfir_ntfs/addons/FAT.py:550-553 `get_bs_oemname`. -/
def oemName (b : BSBPB) : Bytes := slice b.buf 3 11
/-- dfir_ntfs/addons/FAT.py:622-629 `get_bpb_media`. -/
def media (b : BSBPB) : Except Exc Nat :=
  if u8 b.buf 21 ∉ [0xF0, 0xF8, 0xF9, 0xFA, 0xFB, 0xFC, 0xFD, 0xFE, 0xFF] then .error .BootSectorException else .ok (u8 b.buf 21)
/-- dfir_ntfs/addons/FAT.py:640-643 `get_bpb_secpertrk`. -/
def secPerTrk (b : BSBPB) : Nat := u16 b.buf 24
/-- dfir_ntfs/addons/FAT.py:645-648 `get_bpb_numheads`. -/
def numHeads (b : BSBPB) : Nat := u16 b.buf 26
/-- dfir_ntfs/addons/FAT.py:650-653 `get_bpb_hiddsec`. -/
def hiddSec (b : BSBPB) : Nat := u32 b.buf 28
/-- dfir_ntfs/addons/FAT.py:664-667 `get_signature`. -/
def signature (b : BSBPB) : Bytes := slice b.buf 510 512
/-- dfir_ntfs/addons/FAT.py:720-730 `get_bpb_fsinfo`. -/
def fsInfo (b : BSBPB) : Except Exc (Option Nat) :=
  if ¬ b.isFat32 then .ok none
  else if u16 b.buf 48 = 0 then .error .BootSectorException
  else .ok (some (u16 b.buf 48))
/-- dfir_ntfs/addons/FAT.py:732-742 `get_bpb_bkbootsec`. -/
def bkBootSec (b : BSBPB) : Except Exc (Option Nat) :=
  if ¬ b.isFat32 then .ok none
  else if u16 b.buf 50 = 0 then .error .BootSectorException
  else .ok (some (u16 b.buf 50))
/-- dfir_ntfs/addons/FAT.py:744-750 `get_bpb_reserved`. -/
def reserved (b : BSBPB) : Option Bytes := if ¬ b.isFat32 then none else some (slice b.buf 52 64)
/-- dfir_ntfs/addons/FAT.py:752-758 `get_bs_drvnum`. -/
def drvNum (b : BSBPB) : Nat := if ¬ b.isFat32 then u8 b.buf 36 else u8 b.buf 64
/-- dfir_ntfs/addons/FAT.py:760-768 `get_bs_dirty_flags`. -/
def dirtyFlags (b : BSBPB) : Nat := if ¬ b.isFat32 then u8 b.buf 37 else u8 b.buf 65
/-- dfir_ntfs/addons/FAT.py:770-778 `BSBPB.is_volume_dirty`: whether the volume is dirty, and whether its surface has to be checked. -/
def isVolumeDirty (b : BSBPB) : Bool × Bool := (decide (b.dirtyFlags &&& 0x01 > 0), decide (b.dirtyFlags &&& 0x02 > 0))
/-- dfir_ntfs/addons/FAT.py:788-814 `get_bs_extfields`. -/
def extFields (b : BSBPB) : Option Nat × Option Bytes × Option Bytes :=
  if b.bootSig = 0x29 then
    if b.isFat32 then (some (u32 b.buf 67), some (slice b.buf 71 82), some (slice b.buf 82 90))
    else (some (u32 b.buf 39), some (slice b.buf 43 54), some (slice b.buf 54 62))
  else if b.bootSig = 0x28 then
    if b.isFat32 then (some (u32 b.buf 67), none, none) else (some (u32 b.buf 39), none, none)
  else (none, none, none)

end BSBPB

/-- dfir_ntfs/addons/FAT.py:182-220 `IsFileSystemUnusual12Or16`: whether it gives `True` (and a warning, unless it is asked not to). -/
def isUnusual12Or16 (count : Int) : Bool := decide (count ≥ 4079 ∧ count ≤ 4086)

/-! ### FSINFO -/

/-- dfir_ntfs/addons/FAT.py:867-880 `FSINFO.__init__` and `get_fsi_signatures`: the three signatures; `struct` refuses a buffer that is too short. -/
def openFsInfo (buf : Bytes) : Except Exc Bytes :=
  if buf.length < 512 then .error .StructError
  else if (u32 buf 0, u32 buf 484, u32 buf 508) ≠ (0x41615252, 0x61417272, 0xAA550000) then .error .FileSystemInfoException
  else .ok buf
/-- dfir_ntfs/addons/FAT.py:887-890 `get_fsi_free_count`. -/
def fsiFreeCount (buf : Bytes) : Nat := u32 buf 488
/-- dfir_ntfs/addons/FAT.py:892-895 `get_fsi_nxt_free`. -/
def fsiNxtFree (buf : Bytes) : Nat := u32 buf 492
/-- dfir_ntfs/addons/FAT.py:882-885 `get_fsi_reserved1`. -/
def fsiReserved1 (buf : Bytes) : Bytes := slice buf 4 484
/-- dfir_ntfs/addons/FAT.py:897-900 `get_fsi_reserved2`. -/
def fsiReserved2 (buf : Bytes) : Bytes := slice buf 496 508

/-! ### Attributes as text -/

/-- dfir_ntfs/addons/FAT.py:63-70: the names, by increasing value. -/
def fileAttrList : List (Nat × String) :=
  [(0x01, "READ_ONLY"), (0x02, "HIDDEN"), (0x04, "SYSTEM"), (0x08, "VOLUME_ID"), (0x10, "DIRECTORY"), (0x20, "ARCHIVE")]

/-- dfir_ntfs/addons/exFAT.py:60-67: the names for exFAT, by increasing value. -/
def fileAttrListExFAT : List (Nat × String) :=
  [(0x01, "READ_ONLY"), (0x02, "HIDDEN"), (0x04, "SYSTEM"), (0x08, "UNKNOWN8_MACOS"), (0x10, "DIRECTORY"), (0x20, "ARCHIVE")]

/-- dfir_ntfs/addons/FAT.py:90-98 and exFAT.py:108-116: the loop. -/
def attrNames (attributes : Nat) : List (Nat × String) → List Str
  | [] => []
  | (mask, name) :: rest => if attributes &&& mask > 0 then Str.ofString name :: attrNames attributes rest else attrNames attributes rest

/-- dfir_ntfs/addons/FAT.py:90-98 and exFAT.py:108-116 `ResolveFileAttributes`. -/
def resolveAttributes (list : List (Nat × String)) (attributes : Nat) : Str := pyJoin (Str.ofString " | ") (attrNames attributes list)

end Verif.FAT
