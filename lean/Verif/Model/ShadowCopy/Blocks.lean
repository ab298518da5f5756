/-
Model of dfir_ntfs/ShadowCopy.py:56-622: the blocks of the shadow copy metadata and their items.
The getters that nothing else uses are in `ShadowCopy/Fields.lean`; not modelled: the `__str__` methods (GUIDs as `uuid`
objects are their bytes).  Two `uuid.UUID(bytes_le = raw)` are equal exactly
when the raw bytes are, so GUIDs are compared as raw bytes.
-/
import Verif.Basic.Exc
namespace Verif.ShadowCopy

/-- The subclasses of `ShadowCopyException` (dfir_ntfs/ShadowCopy.py:56-102): what
`except ShadowCopyException` catches. -/
def isShadowCopyException : Exc → Bool
  | .ShadowCopyException | .ShadowCopyNotFoundException | .ShadowBlockException | .StartBlockException
  | .ShadowCopiesDisabledException | .ControlBlockException | .ControlBlockItemException => true
  | _ => false

/-- dfir_ntfs/ShadowCopy.py:11 `VSP_DIFF_AREA_FILE_GUID`. -/
def diffAreaGuid : Bytes :=
  [0x6B, 0x87, 0x08, 0x38, 0x76, 0xC1, 0x48, 0x4E, 0xB7, 0xAE, 0x04, 0x04, 0x6E, 0x6C, 0xC7, 0x52]

/-- dfir_ntfs/ShadowCopy.py:131-149: the getters of a block (its data is at least 512 bytes long in all
the uses, so they cannot fail). -/
def blockType (b : Bytes) : Nat := u32 b 20
/-- dfir_ntfs/ShadowCopy.py:136-139 `get_offset_1`. -/
def offset1 (b : Bytes) : Nat := u64 b 24
/-- dfir_ntfs/ShadowCopy.py:141-144 `get_offset_2`. -/
def offset2 (b : Bytes) : Nat := u64 b 32
/-- dfir_ntfs/ShadowCopy.py:146-149 `get_offset_3`. -/
def offset3 (b : Bytes) : Nat := u64 b 40

/-! ### Start block -/

/-- dfir_ntfs/ShadowCopy.py:163-183 `StartBlock.__init__` (with 110-114 `ShadowBlock.__init__` and 249-253
`is_supported_volume`): accepts or raises. -/
def startBlock (buf : Bytes) : Except Exc Unit :=
  let block := slice buf 7680 8192
  if buf.length ≠ 8192 then .error .StartBlockException                                   -- 164
  else if slice buf 3 7 ∉ ([[0x4E, 0x54, 0x46, 0x53], [0x52, 0x65, 0x46, 0x53]] : List Bytes) then .error .InvalidVolume -- 168
  else if slice block 0 16 ≠ diffAreaGuid then .error .ShadowCopyException                -- 113
  else if offset1 block ≠ 7680 then .error .StartBlockException                           -- 173
  else if offset2 block ≠ 7680 then .error .StartBlockException                           -- 176
  else if offset3 block ≠ 0 then .error .StartBlockException                              -- 179
  else if blockType block ≠ 1 then .error .StartBlockException                            -- 182
  else .ok ()

/-- dfir_ntfs/ShadowCopy.py:185-192 `get_first_control_block_offset`. -/
def firstControlBlockOffset (buf : Bytes) : Except Exc Nat :=
  let offset := u64 buf 7728
  if offset > 0 ∧ offset % 0x4000 ≠ 0 then .error .StartBlockException else .ok offset

/-- dfir_ntfs/ShadowCopy.py:219-222 `is_storage_local`. -/
def isStorageLocal (buf : Bytes) : Bool := decide (slice buf 7744 7760 = slice buf 7760 7776)

/-! ### The blocks of the chains -/

/-- The types of the blocks that are chained (dfir_ntfs/ShadowCopy.py:13-19); an application information
block (type 4) is not. -/
inductive Kind where
  | control | diffArea | location | bitmap
  deriving DecidableEq, Repr

/-- dfir_ntfs/ShadowCopy.py:13-19. -/
def Kind.type : Kind → Nat
  | .control => 2
  | .diffArea => 3
  | .location => 5
  | .bitmap => 6

/-- dfir_ntfs/ShadowCopy.py:456-622: The class of the exceptions that the constructors of the blocks raise. -/
def Kind.exc : Kind → Exc
  | .control => .ControlBlockException
  | _ => .ShadowBlockException

/-- dfir_ntfs/ShadowCopy.py:261-272 `ControlBlock.__init__`, 488-499 `Bitmap.__init__`, 522-533
`DiffAreaTable.__init__`, 577-588 `LocationDescription.__init__`, with 110-114 `ShadowBlock.__init__`.
The last check of the three latter (`offset == 0 and offset % 0x4000 != 0`) can never hold and is left
out. -/
def block (k : Kind) (buf : Bytes) : Except Exc Unit :=
  if buf.length ≠ 0x4000 then .error k.exc
  else if slice buf 0 16 ≠ diffAreaGuid then .error .ShadowCopyException
  else if blockType buf ≠ k.type then .error k.exc
  else if k = .control ∧ offset1 buf > 0 ∧ offset1 buf % 0x4000 ≠ 0 then .error k.exc     -- 271
  else .ok ()

/-- dfir_ntfs/ShadowCopy.py:459-470 `ApplicationInformation.__init__`. -/
def applicationBlock (buf : Bytes) : Except Exc Unit :=
  if buf.length ≠ 0x4000 then .error .ShadowBlockException
  else if slice buf 0 16 ≠ diffAreaGuid then .error .ShadowCopyException
  else if blockType buf ≠ 4 then .error .ShadowBlockException
  else .ok ()

/-! ### Items of a control block -/

/-- An item (`ControlBlockItem2` or `ControlBlockItem3`) with its 128 bytes. -/
inductive Item where
  | store (raw : Bytes)
  | location (raw : Bytes)
  deriving DecidableEq, Repr

/-- dfir_ntfs/ShadowCopy.py:348-377, 405-448: getters of the items.  The store GUID is at the same place in
both. -/
def storeGuid (raw : Bytes) : Bytes := slice raw 16 32
/-- dfir_ntfs/ShadowCopy.py:348-351 `get_volume_size`. -/
def volumeSize (raw : Bytes) : Nat := u64 raw 8
/-- dfir_ntfs/ShadowCopy.py:374-377 `get_stack_position`. -/
def stackPosition (raw : Bytes) : Nat := u64 raw 32
/-- dfir_ntfs/ShadowCopy.py:363-366 `get_flags`. -/
def storeFlags (raw : Bytes) : Nat := u64 raw 40
/-- dfir_ntfs/ShadowCopy.py:368-372 `get_timestamp`, before decoding. -/
def timestamp (raw : Bytes) : Nat := u64 raw 48
/-- dfir_ntfs/ShadowCopy.py:405-408 `get_diff_area_block_offset`. -/
def diffAreaOffset (raw : Bytes) : Nat := u64 raw 8
/-- dfir_ntfs/ShadowCopy.py:420-423 `get_application_information_block_offset`. -/
def applicationOffset (raw : Bytes) : Nat := u64 raw 32
/-- dfir_ntfs/ShadowCopy.py:425-428 `get_location_description_block_offset`. -/
def locationOffset (raw : Bytes) : Nat := u64 raw 40
/-- dfir_ntfs/ShadowCopy.py:430-433 `get_bitmap_offset`. -/
def bitmapOffset (raw : Bytes) : Nat := u64 raw 48
/-- dfir_ntfs/ShadowCopy.py:445-448 `get_previous_bitmap_offset`. -/
def previousBitmapOffset (raw : Bytes) : Nat := u64 raw 72

/-- dfir_ntfs/ShadowCopy.py:289-315 `ControlBlock.items`, with the checks of the constructors of the items
(326-336, 391-398; the checks of the size and of the type cannot fail here). -/
def itemsLoop (data : Bytes) (offset : Nat) : Gen Item :=
  if offset < 0x4000 then
    if (slice data offset (offset + 4)).length ≠ 4 then .done                             -- 295
    else if u32 data offset = 0 then .done                                                -- 299
    else if u32 data offset ∉ [1, 2, 3] then .fail .ControlBlockException                 -- 302
    else if u32 data offset = 1 then itemsLoop data (offset + 0x80)
    else
      let raw := slice data offset (offset + 0x80)                                        -- 306
      if raw.length ≠ 0x80 then .fail .ControlBlockException                              -- 307
      else if u32 data offset = 2 then
        if volumeSize raw = 0 then .fail .ControlBlockItemException                       -- 335
        else .cons (.store raw) (itemsLoop data (offset + 0x80))
      else .cons (.location raw) (itemsLoop data (offset + 0x80))
  else .done
termination_by 0x4000 - offset

/-- dfir_ntfs/ShadowCopy.py:289. -/
def items (data : Bytes) : Gen Item := itemsLoop data 0x80

/-! ### Tables -/

/-- dfir_ntfs/ShadowCopy.py:54 `OnDiskTableEntry`. -/
structure Entry where
  original : Nat
  inStore : Nat
  dataBlock : Nat
  flags : Nat
  bitmap : Nat
  deriving DecidableEq, Repr

/-- dfir_ntfs/ShadowCopy.py:543: `struct.unpack('<QQQLL', buf)`. -/
def entryOf (buf : Bytes) : Entry := ⟨u64 buf 0, u64 buf 8, u64 buf 16, u32 buf 24, u32 buf 28⟩

/-- dfir_ntfs/ShadowCopy.py:535-559 `DiffAreaTable.get_diff_area`: the loop.  `items` is returned only when
nothing is raised. -/
def diffAreaLoop (data : Bytes) (offset : Nat) : Except Exc (List Entry) :=
  if offset + 32 ≤ data.length then                                                       -- 541
    let e := entryOf (slice data offset (offset + 32))
    if e.original % 0x4000 ≠ 0 ∨ e.dataBlock % 0x4000 ≠ 0 ∨ e.flags &&& 0xFFFFFF00 ≠ 0 then .error .ShadowBlockException -- 545
    else if e.flags &&& 1 > 0 ∧ e.flags &&& 2 > 0 then .error .ShadowBlockException       -- 548
    else if e.dataBlock = 0 ∧ e.flags = 0 then .ok []                                     -- 551
    else
      match diffAreaLoop data (offset + 32) with
      | .error x => .error x
      | .ok rest => .ok (if e.flags &&& 4 = 0 then e :: rest else rest)                   -- 554
  else .ok []
termination_by data.length - offset

/-- dfir_ntfs/ShadowCopy.py:535. -/
def diffAreaEntries (data : Bytes) : Except Exc (List Entry) := diffAreaLoop data 0x80

/-- dfir_ntfs/ShadowCopy.py:53 `LocationDescriptionItems`. -/
structure Location where
  volumeOffset : Nat
  storeOffset : Nat
  size : Nat
  deriving DecidableEq, Repr

/-- dfir_ntfs/ShadowCopy.py:590-609 `get_location_description_items`: the loop. -/
def locationLoop (data : Bytes) (offset : Nat) : Except Exc (List Location) :=
  if offset + 24 ≤ data.length then
    let buf := slice data offset (offset + 24)
    if u64 buf 0 = 0 then .ok []                                                          -- 599
    else if u64 buf 16 = 0 then .error .ShadowBlockException                              -- 602
    else
      match locationLoop data (offset + 24) with
      | .error x => .error x
      | .ok rest => .ok (⟨u64 buf 0, u64 buf 8, u64 buf 16⟩ :: rest)
  else .ok []
termination_by data.length - offset

/-- dfir_ntfs/ShadowCopy.py:590. -/
def locations (data : Bytes) : Except Exc (List Location) := locationLoop data 0x80

end Verif.ShadowCopy
