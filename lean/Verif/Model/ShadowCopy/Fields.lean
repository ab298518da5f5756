/-
Model of the fields of the shadow copy metadata that the parser itself does not use: dfir_ntfs/ShadowCopy.py:116-451.  A GUID is given as its
16 bytes (`uuid.UUID(bytes_le = raw)` is another form of them).
-/
import Verif.Model.ShadowCopy.Blocks
namespace Verif.ShadowCopy

/-- dfir_ntfs/ShadowCopy.py:116-124 `get_diff_area_guid_raw`, `get_diff_area_guid`. -/
def blockGuid (b : Bytes) : Bytes := slice b 0 16
/-- dfir_ntfs/ShadowCopy.py:126-129 `get_version`. -/
def blockVersion (b : Bytes) : Nat := u32 b 16
/-- dfir_ntfs/ShadowCopy.py:274-277 `get_relative_offset`. -/
def relativeOffset (b : Bytes) : Nat := offset1 b
/-- dfir_ntfs/ShadowCopy.py:279-282, 477-480, 506-509, 561-564, 611-614 `get_volume_offset`. -/
def blockOffset (b : Bytes) : Nat := offset2 b
/-- dfir_ntfs/ShadowCopy.py:284-287 `get_next_control_block_volume_offset`, 511-514, 566-569, 616-619 `get_next_volume_offset`. -/
def nextOffset (b : Bytes) : Nat := offset3 b
/-- dfir_ntfs/ShadowCopy.py:472-475 `get_application_information`, 501-504 `get_bitmap`. -/
def blockContents (b : Bytes) : Bytes := b.drop 0x80

/-! ### Start block: `buf` has the first 8192 bytes of a volume -/

/-- dfir_ntfs/ShadowCopy.py:194-197 `get_max_diff_area_size`. -/
def maxDiffAreaSize (buf : Bytes) : Nat := u64 buf 7736
/-- dfir_ntfs/ShadowCopy.py:199-207 `get_volume_guid_raw`, `get_volume_guid`. -/
def volumeGuid (buf : Bytes) : Bytes := slice buf 7744 7760
/-- dfir_ntfs/ShadowCopy.py:209-217 `get_storage_guid_raw`, `get_storage_guid`. -/
def storageGuid (buf : Bytes) : Bytes := slice buf 7760 7776
/-- dfir_ntfs/ShadowCopy.py:224-227 `get_application_flags`. -/
def applicationFlags (buf : Bytes) : Nat := u64 buf 7776
/-- dfir_ntfs/ShadowCopy.py:229-232 `get_free_space_precopy_percentage`. -/
def freeSpacePercentage (buf : Bytes) : Nat := u64 buf 7784
/-- dfir_ntfs/ShadowCopy.py:234-237 `get_hot_blocks_precopy_percentage`. -/
def hotBlocksPercentage (buf : Bytes) : Nat := u64 buf 7792
/-- dfir_ntfs/ShadowCopy.py:239-242 `get_hot_blocks_days`. -/
def hotBlocksDays (buf : Bytes) : Nat := u32 buf 7800
/-- dfir_ntfs/ShadowCopy.py:244-247 `get_protection_flags`. -/
def protectionFlags (buf : Bytes) : Nat := u32 buf 7804

/-! ### Items -/

/-- dfir_ntfs/ShadowCopy.py:338-341, 400-403 `get_item_type`. -/
def itemType (raw : Bytes) : Nat := u32 raw 0
/-- dfir_ntfs/ShadowCopy.py:343-346 `get_snapshot_priority`. -/
def snapshotPriority (raw : Bytes) : Nat := u8 raw 4
/-- dfir_ntfs/ShadowCopy.py:379-380 `get_unknown_56`. -/
def unknown56 (raw : Bytes) : Nat := u16 raw 56
/-- dfir_ntfs/ShadowCopy.py:435-438 `get_file_reference`. -/
def fileReference (raw : Bytes) : Nat := u64 raw 56
/-- dfir_ntfs/ShadowCopy.py:440-443 `get_allocation_size`. -/
def allocationSize (raw : Bytes) : Nat := u64 raw 64
/-- dfir_ntfs/ShadowCopy.py:450-451 `get_unknown_80`. -/
def unknown80 (raw : Bytes) : Nat := u32 raw 80

end Verif.ShadowCopy
