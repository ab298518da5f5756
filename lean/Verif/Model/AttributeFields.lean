/-
Model of the methods of dfir_ntfs/Attributes.py that read single fields of a value.  A field is
`struct.unpack` of a slice: a short value raises `struct.error`.  Timestamps are microseconds since
1601-01-01 (`none` when they are too large for a `datetime`).
-/
import Verif.Model.Attributes
namespace Verif.Attributes

/-- `DecodeFiletime(struct.unpack('<Q', value[i : i + 8])[0])` (dfir_ntfs/Attributes.py:246-247 and all the other timestamps). -/
def timeField (value : Bytes) (i : Nat) : Except Exc (Option Nat) :=
  match unpackLE 8 (slice value i (i + 8)) with
  | .error e => .error e
  | .ok t => .ok (decodeFiletime t)

/-- `struct.unpack('<q', value[i : i + 8])[0]` (dfir_ntfs/Attributes.py:425, 430). -/
def signedField (value : Bytes) (i : Nat) : Except Exc Int :=
  if (slice value i (i + 8)).length = 8 then .ok (leInt (slice value i (i + 8))) else .error .StructError

/-- `data = value[i : i + n]; if len(data) == n: return struct.unpack(..., data)[0]` (dfir_ntfs/Attributes.py:312-314). -/
def optionalField (n : Nat) (value : Bytes) (i : Nat) : Option Nat :=
  if (slice value i (i + n)).length = n then some (leNat (slice value i (i + n))) else none

/-! ### `$STANDARD_INFORMATION` -/

/-- dfir_ntfs/Attributes.py:243-247 `StandardInformation.get_ctime`. -/
def siCtime (value : Bytes) : Except Exc (Option Nat) := timeField value 0
/-- dfir_ntfs/Attributes.py:249-253 `StandardInformation.get_mtime`. -/
def siMtime (value : Bytes) : Except Exc (Option Nat) := timeField value 8
/-- dfir_ntfs/Attributes.py:255-259 `StandardInformation.get_etime`. -/
def siEtime (value : Bytes) : Except Exc (Option Nat) := timeField value 16
/-- dfir_ntfs/Attributes.py:261-265 `StandardInformation.get_atime`. -/
def siAtime (value : Bytes) : Except Exc (Option Nat) := timeField value 24
/-- dfir_ntfs/Attributes.py:267-270 `StandardInformation.get_file_attributes`. -/
def siFileAttributes (value : Bytes) : Except Exc Nat := unpackLE 4 (slice value 32 36)
/-- dfir_ntfs/Attributes.py:272-275 `StandardInformation.get_maximum_versions`. -/
def siMaximumVersions (value : Bytes) : Except Exc Nat := unpackLE 4 (slice value 36 40)
/-- dfir_ntfs/Attributes.py:277-280 `StandardInformation.get_version_number`. -/
def siVersionNumber (value : Bytes) : Except Exc Nat := unpackLE 4 (slice value 40 44)
/-- dfir_ntfs/Attributes.py:282-285 `StandardInformation.get_extra_flags`. -/
def siExtraFlags (value : Bytes) : Except Exc Nat := unpackLE 4 (slice value 40 44)
/-- dfir_ntfs/Attributes.py:287-290 `StandardInformation.is_case_sensitive` (`EXTRA_FLAG_UNKNOWN_NAME_1` is 1). -/
def siCaseSensitive (value : Bytes) : Except Exc Bool := (siExtraFlags value).map fun f => decide (f &&& 1 > 0)
/-- dfir_ntfs/Attributes.py:292-295 `StandardInformation.get_storage_reserve_id`. -/
def siStorageReserveId (value : Bytes) : Except Exc Nat := (siExtraFlags value).map fun f => (f >>> 8) &&& 0xF
/-- dfir_ntfs/Attributes.py:297-300 `StandardInformation.get_known_folder_information`. -/
def siKnownFolder (value : Bytes) : Except Exc Nat := (siExtraFlags value).map fun f => (f &&& 0xE) >>> 1
/-- dfir_ntfs/Attributes.py:302-305 `StandardInformation.get_trust_level`. -/
def siTrustLevel (value : Bytes) : Except Exc Nat := (siExtraFlags value).map fun f => (f &&& 0x30) >>> 4
/-- dfir_ntfs/Attributes.py:307-310 `StandardInformation.get_class_id`. -/
def siClassId (value : Bytes) : Except Exc Nat := unpackLE 4 (slice value 44 48)
/-- dfir_ntfs/Attributes.py:312-317 `StandardInformation.get_owner_id`. -/
def siOwnerId (value : Bytes) : Option Nat := optionalField 4 value 48
/-- dfir_ntfs/Attributes.py:319-324 `StandardInformation.get_security_id`. -/
def siSecurityId (value : Bytes) : Option Nat := optionalField 4 value 52
/-- dfir_ntfs/Attributes.py:326-331 `StandardInformation.get_quota_charged`. -/
def siQuotaCharged (value : Bytes) : Option Nat := optionalField 8 value 56
/-- dfir_ntfs/Attributes.py:333-338 `StandardInformation.get_usn`. -/
def siUsn (value : Bytes) : Option Nat := optionalField 8 value 64

/-! ### Partial `$STANDARD_INFORMATION` -/

/-- dfir_ntfs/Attributes.py:357-362: the padded value and the offset. -/
structure PartialInformation where
  value : Bytes
  offset : Nat
  deriving DecidableEq, Repr

/-- dfir_ntfs/Attributes.py:360-362 `StandardInformationPartial.__init__`. -/
def PartialInformation.init (value : Bytes) (offset : Nat) : PartialInformation := ⟨zeros offset ++ value, offset⟩

/-- dfir_ntfs/Attributes.py:364-390: the part shared by the four methods.  (`struct.unpack` cannot fail: the length was checked.) -/
def PartialInformation.timeAt (p : PartialInformation) (i : Nat) : Option Nat :=
  if p.offset ≤ i ∧ p.value.length ≥ i + 8 then decodeFiletime (u64 p.value i) else none

/-- dfir_ntfs/Attributes.py:364-369 `StandardInformationPartial.get_ctime`. -/
def PartialInformation.ctime (p : PartialInformation) : Option Nat :=
  if p.offset = 0 ∧ p.value.length ≥ 8 then decodeFiletime (u64 p.value 0) else none
/-- dfir_ntfs/Attributes.py:371-376 `StandardInformationPartial.get_mtime`. -/
def PartialInformation.mtime (p : PartialInformation) : Option Nat := p.timeAt 8
/-- dfir_ntfs/Attributes.py:378-383 `StandardInformationPartial.get_etime`. -/
def PartialInformation.etime (p : PartialInformation) : Option Nat := p.timeAt 16
/-- dfir_ntfs/Attributes.py:385-390 `StandardInformationPartial.get_atime`. -/
def PartialInformation.atime (p : PartialInformation) : Option Nat := p.timeAt 24

/-! ### `DUPLICATED_INFORMATION`, alone or in a `$FILE_NAME` (dfir_ntfs/Attributes.py:395-396, 452-454) -/

/-- dfir_ntfs/Attributes.py:398-402 `DuplicatedInformation.get_ctime`. -/
def diCtime (di : Bytes) : Except Exc (Option Nat) := timeField di 0
/-- dfir_ntfs/Attributes.py:404-408 `DuplicatedInformation.get_mtime`. -/
def diMtime (di : Bytes) : Except Exc (Option Nat) := timeField di 8
/-- dfir_ntfs/Attributes.py:410-414 `DuplicatedInformation.get_etime`. -/
def diEtime (di : Bytes) : Except Exc (Option Nat) := timeField di 16
/-- dfir_ntfs/Attributes.py:416-420 `DuplicatedInformation.get_atime`. -/
def diAtime (di : Bytes) : Except Exc (Option Nat) := timeField di 24
/-- dfir_ntfs/Attributes.py:422-425 `DuplicatedInformation.get_allocated_length`. -/
def diAllocatedLength (di : Bytes) : Except Exc Int := signedField di 32
/-- dfir_ntfs/Attributes.py:427-430 `DuplicatedInformation.get_file_size`. -/
def diFileSize (di : Bytes) : Except Exc Int := signedField di 40
/-- dfir_ntfs/Attributes.py:432-435 `DuplicatedInformation.get_file_attributes`. -/
def diFileAttributes (di : Bytes) : Except Exc Nat := unpackLE 4 (slice di 48 52)
/-- dfir_ntfs/Attributes.py:437-440 `DuplicatedInformation.get_packed_ea_size`. -/
def diPackedEaSize (di : Bytes) : Except Exc Nat := unpackLE 2 (slice di 52 54)
/-- dfir_ntfs/Attributes.py:442-447 `DuplicatedInformation.get_unpacked_ea_size_difference`. -/
def diUnpackedEaSizeDifference (di : Bytes) : Except Exc Nat := unpackLE 2 (slice di 54 56)

/-- dfir_ntfs/Attributes.py:452-454 `FileName.__init__`: the duplicated information of a `$FILE_NAME` value. -/
def fileNameInformation (value : Bytes) : Bytes := value.drop 8

/-! ### GUIDs (the `uuid` module of Python) and `$OBJECT_ID` -/

/-- `uuid.UUID(bytes_le = data).version` (dfir_ntfs/Attributes.py:509, dfir_ntfs/MoveTable.py:262): `none` unless the variant is that of RFC 4122.
`data` has 16 bytes. -/
def guidVersion (data : Bytes) : Option Nat :=
  if u8 data 8 &&& 0x80 = 0 then none                 -- RESERVED_NCS
  else if u8 data 8 &&& 0x40 = 0 then some (u16 data 6 >>> 12)
  else none

/-- `uuid.UUID(bytes_le = data).time` (dfir_ntfs/Attributes.py:510, dfir_ntfs/MoveTable.py:263) of a version 1 GUID. -/
def guidTime (data : Bytes) : Nat := (u16 data 6 &&& 0xFFF) <<< 48 ||| u16 data 4 <<< 32 ||| u32 data 0

/-- dfir_ntfs/Attributes.py:497-504 `ObjectID.get_object_id`: the bytes of the GUID. -/
def objectId (value : Bytes) : Option Bytes :=
  if (slice value 0 16).length ≠ 16 then none else some (slice value 0 16)

/-- dfir_ntfs/Attributes.py:506-511 `ObjectID.get_timestamp`: microseconds since 1582-10-15. -/
def objectIdTimestamp (value : Bytes) : Option Nat :=
  match objectId value with
  | none => none
  | some guid => if guidVersion guid = some 1 then decodeGuidTime (guidTime guid) else none

/-- dfir_ntfs/Attributes.py:513-516 `ObjectID.get_extra_data`. -/
def objectIdExtra (value : Bytes) : Bytes := value.drop 16

/-! ### Other attributes -/

/-- dfir_ntfs/Attributes.py:576-584 `AttributeList.get_last_compacted_size` (`LAST_COMPACTED_SIZE_SIGNATURE` is `b'DC'`, line 141). -/
def lastCompactedSize (value : Bytes) : Except Exc (Option Nat) :=
  if slice value 26 28 ≠ [0x44, 0x43] then .ok none
  else (unpackLE 4 (slice value 28 32)).map some

/-- dfir_ntfs/Attributes.py:623-626 `VolumeName.get_name`. -/
def volumeName (value : Bytes) : Str := utf16Decode value
/-- dfir_ntfs/Attributes.py:637-640 `VolumeInformation.get_major_version`. -/
def volumeMajor (value : Bytes) : Except Exc Nat := unpackLE 1 (slice value 8 9)
/-- dfir_ntfs/Attributes.py:643-646 `VolumeInformation.get_minor_version`. -/
def volumeMinor (value : Bytes) : Except Exc Nat := unpackLE 1 (slice value 9 10)
/-- dfir_ntfs/Attributes.py:648-651 `VolumeInformation.get_flags`. -/
def volumeFlags (value : Bytes) : Except Exc Nat := unpackLE 2 (slice value 10 12)

/-- dfir_ntfs/Attributes.py:666-669 `IndexHeader.get_first_index_entry`. -/
def indexHeaderFirst (header : Bytes) : Except Exc Nat := unpackLE 4 (slice header 0 4)
/-- dfir_ntfs/Attributes.py:671-674 `IndexHeader.get_first_free_byte`. -/
def indexHeaderFree (header : Bytes) : Except Exc Nat := unpackLE 4 (slice header 4 8)
/-- dfir_ntfs/Attributes.py:676-679 `IndexHeader.get_bytes_available`. -/
def indexHeaderAvailable (header : Bytes) : Except Exc Nat := unpackLE 4 (slice header 8 12)
/-- dfir_ntfs/Attributes.py:681-684 `IndexHeader.get_flags`. -/
def indexHeaderFlags (header : Bytes) : Except Exc Nat := unpackLE 1 (slice header 12 13)

/-- dfir_ntfs/Attributes.py:720-726 `IndexEntry.get_vcn`. -/
def IndexEntry.vcn (e : IndexEntry) : Except Exc (Option Nat) :=
  match e.length with
  | .error x => .error x
  | .ok n =>
    match e.flags with
    | .error x => .error x
    | .ok fl => if fl &&& 1 > 0 ∧ n > 8 then (unpackLE 8 (slice e.raw (n - 8) n)).map some else .ok none

/-- dfir_ntfs/Attributes.py:731-734 `IndexRoot.get_indexed_attribute_type_code`. -/
def indexRootType (value : Bytes) : Except Exc Nat := unpackLE 4 (slice value 0 4)
/-- dfir_ntfs/Attributes.py:736-739 `IndexRoot.get_collation_rule`. -/
def indexRootCollation (value : Bytes) : Except Exc Nat := unpackLE 4 (slice value 4 8)
/-- dfir_ntfs/Attributes.py:741-744 `IndexRoot.get_bytes_per_index_buffer`. -/
def indexRootBytes (value : Bytes) : Except Exc Nat := unpackLE 4 (slice value 8 12)
/-- dfir_ntfs/Attributes.py:746-749 `IndexRoot.get_blocks_per_index_buffer`. -/
def indexRootBlocks (value : Bytes) : Except Exc Nat := unpackLE 4 (slice value 12 16)
/-- dfir_ntfs/Attributes.py:751-755 `IndexRoot.get_index_header`. -/
def indexRootHeader (value : Bytes) : Bytes := slice value 16 32

/-- dfir_ntfs/Attributes.py:830-833 `IndexBuffer.get_logfile_sequence_number`. -/
def indexBufferLsn (buffer : Bytes) : Except Exc Nat := unpackLE 8 (slice buffer 8 16)
/-- dfir_ntfs/Attributes.py:835-838 `IndexBuffer.get_this_block`. -/
def indexBufferBlock (buffer : Bytes) : Except Exc Nat := unpackLE 8 (slice buffer 16 24)
/-- dfir_ntfs/Attributes.py:840-844 `IndexBuffer.get_index_header`. -/
def indexBufferHeader (buffer : Bytes) : Bytes := slice buffer 24 40

/-- dfir_ntfs/Attributes.py:924-936: the loop of `IndexAllocation.get_slack` over the buffers. -/
def slackOfBuffers : List Bytes → Except Exc (List Bytes)
  | [] => .ok []
  | b :: rest =>
    match indexBufferSlack b with                                                             -- 929
    | .error e => .error e
    | .ok s =>
      match slackOfBuffers rest with
      | .error e => .error e
      | .ok l => .ok (if s.length ≤ 8 then l else s :: l)                                     -- 931-934

/-- dfir_ntfs/Attributes.py:924-936 `IndexAllocation.get_slack`.  (When a buffer fails, the exception of its slack space
comes before that of a later buffer.) -/
def indexAllocationSlack (file : Bytes) : Except Exc (List Bytes) :=
  match slackOfBuffers (indexBuffers file).items with
  | .error e => .error e
  | .ok l =>
    match (indexBuffers file).err with
    | some e => .error e
    | none => .ok l

/-- dfir_ntfs/Attributes.py:962-965 `ReparsePoint.get_reparse_tag`. -/
def reparseTag (value : Bytes) : Except Exc Nat := unpackLE 4 (slice value 0 4)
/-- dfir_ntfs/Attributes.py:967-970 `ReparsePoint.is_reparse_tag_microsoft`. -/
def reparseIsMicrosoft (value : Bytes) : Except Exc Bool := (reparseTag value).map fun t => decide (t &&& 0x80000000 > 0)
/-- dfir_ntfs/Attributes.py:972-975 `ReparsePoint.get_reparse_data_length`. -/
def reparseDataLength (value : Bytes) : Except Exc Nat := unpackLE 2 (slice value 4 6)
/-- dfir_ntfs/Attributes.py:977-982 `ReparsePoint.get_reparse_guid`.  `uuid.UUID` raises ValueError unless it gets 16 bytes, and
AssertionError when it gets a `bytearray` (`mutable`), which is what the attributes of a file record segment are made of
(dfir_ntfs/MFT.py:205). -/
def reparseGuid (mutable : Bool) (value : Bytes) : Except Exc (Option Bytes) :=
  match reparseIsMicrosoft value with
  | .error e => .error e
  | .ok true => .ok none
  | .ok false =>
    if (slice value 8 24).length ≠ 16 then .error .ValueError
    else if mutable then .error .AssertionError
    else .ok (some (slice value 8 24))
/-- dfir_ntfs/Attributes.py:984-990 `ReparsePoint.get_reparse_buffer`. -/
def reparseBuffer (value : Bytes) : Except Exc Bytes :=
  match reparseIsMicrosoft value with
  | .error e => .error e
  | .ok true => (reparseDataLength value).map fun n => slice value 8 (8 + n)
  | .ok false => (reparseDataLength value).map fun n => slice value 24 (24 + n)

/-- dfir_ntfs/Attributes.py:1002-1005 `EAInformation.get_packed_ea_size`. -/
def eaPackedSize (value : Bytes) : Except Exc Nat := unpackLE 2 (slice value 0 2)
/-- dfir_ntfs/Attributes.py:1007-1010 `EAInformation.get_need_ea_count`. -/
def eaNeedCount (value : Bytes) : Except Exc Nat := unpackLE 2 (slice value 2 4)
/-- dfir_ntfs/Attributes.py:1012-1015 `EAInformation.get_unpacked_ea_size`. -/
def eaUnpackedSize (value : Bytes) : Except Exc Nat := unpackLE 4 (slice value 4 8)

end Verif.Attributes
