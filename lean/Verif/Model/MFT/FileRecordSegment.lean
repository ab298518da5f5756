/-
Model of dfir_ntfs/MFT.py:176-461: `FileRecordSegment` (constructor, fix-ups, header validation,
field getters, attribute enumeration, slack).
-/
import Verif.Model.MFT.MappingPairs
namespace Verif.MFT

/-- dfir_ntfs/MFT.py:10 `FILE_RECORD_SEGMENT_SIZES_SUPPORTED`. -/
def fileRecordSegmentSizesSupported : List Nat := [1024, 4096]
/-- dfir_ntfs/MFT.py:11-12 `MULTI_SECTOR_HEADER_SIGNATURES_SUPPORTED` (`b'FILE'`, `b'BAAD'`, `b'CHKD'`). -/
def multiSectorHeaderSignatureGood : Bytes := [0x46, 0x49, 0x4C, 0x45]
/-- dfir_ntfs/MFT.py:12. -/
def multiSectorHeaderSignaturesSupported : List Bytes :=
  [multiSectorHeaderSignatureGood, [0x42, 0x41, 0x41, 0x44], [0x43, 0x48, 0x4B, 0x44]]
/-- dfir_ntfs/MFT.py:13 `UPDATE_SEQUENCE_STRIDE`. -/
def updateSequenceStride : Nat := 512

/-- A constructed `FileRecordSegment` object (dfir_ntfs/MFT.py:179-195).  `frs_real_size` is not a
field here: it is a result of the attribute enumeration (`AttributesResult.realSize`). -/
structure FileRecordSegment where
  data : Bytes
  usaOffset : Nat
  usaSize : Nat
  shortVersion : Bool
  suggestedMftNumber : Option Nat
  deriving DecidableEq, Repr

/-- dfir_ntfs/MFT.py:326-329 `get_first_free_byte_offset`. -/
def firstFreeByteOffset (data : Bytes) : Nat := u32 data 24
/-- dfir_ntfs/MFT.py:331-334 `get_file_record_segment_size`. -/
def fileRecordSegmentSize (data : Bytes) : Nat := u32 data 28
/-- dfir_ntfs/MFT.py:311-314 `get_first_attribute_offset`. -/
def firstAttributeOffset (data : Bytes) : Nat := u16 data 20
/-- dfir_ntfs/MFT.py:296-299 `get_logfile_sequence_number`. -/
def FileRecordSegment.logfileSequenceNumber (f : FileRecordSegment) : Nat := u64 f.data 8
/-- dfir_ntfs/MFT.py:301-304 `get_sequence_number`. -/
def FileRecordSegment.sequenceNumber (f : FileRecordSegment) : Nat := u16 f.data 16
/-- dfir_ntfs/MFT.py:306-309 `get_reference_count`. -/
def FileRecordSegment.referenceCount (f : FileRecordSegment) : Nat := u16 f.data 18
/-- dfir_ntfs/MFT.py:316-319 `get_flags`. -/
def FileRecordSegment.flags (f : FileRecordSegment) : Nat := u16 f.data 22
/-- dfir_ntfs/MFT.py:321-324 `is_in_use` (`FILE_RECORD_SEGMENT_IN_USE = 1`). -/
def FileRecordSegment.isInUse (f : FileRecordSegment) : Bool := f.flags &&& 1 > 0
/-- dfir_ntfs/MFT.py:336-339 `get_base_file_record_segment`. -/
def FileRecordSegment.baseFileRecordSegment (f : FileRecordSegment) : Nat := u64 f.data 32
/-- dfir_ntfs/MFT.py:341-344 `is_base_file_record_segment`. -/
def FileRecordSegment.isBaseFileRecordSegment (f : FileRecordSegment) : Bool := f.baseFileRecordSegment == 0
/-- dfir_ntfs/MFT.py:291-294 `is_bad`. -/
def FileRecordSegment.isBad (f : FileRecordSegment) : Bool := slice f.data 0 4 != multiSectorHeaderSignatureGood
/-- dfir_ntfs/MFT.py:351-361 `get_master_file_table_number` (a 48-bit number, high part first). -/
def FileRecordSegment.masterFileTableNumber (f : FileRecordSegment) : Option Nat :=
  if f.shortVersion then f.suggestedMftNumber
  else some ((u16 f.data 42 <<< 32) ||| u32 f.data 44)

/-- dfir_ntfs/MFT.py:218-238 `parse_and_validate_multi_sector_header`.  Returns
`(usa_offset, usa_size)`. -/
def parseMultiSectorHeader (data : Bytes) (validate : Bool) : Except Exc (Nat × Nat) :=
  let signature := slice data 0 4                                               -- 223
  let usaOffset := u16 data 4
  let usaSize := u16 data 6
  if signature ∉ multiSectorHeaderSignaturesSupported then
    .error .FileRecordSegmentSignatureException                                 -- 224-225
  else if validate ∧ (usaOffset < 42 ∨ usaOffset > updateSequenceStride - 6) then
    .error .FileRecordSegmentException                                          -- 229-230
  else if validate ∧ (usaSize < 2 ∨ (usaSize - 1) * updateSequenceStride ≠ data.length) then
    .error .FileRecordSegmentException                                          -- 232-233
  else if validate ∧ usaOffset + usaSize * 2 ≥ data.length then
    .error .FileRecordSegmentException                                          -- 235-236
  else .ok (usaOffset, usaSize)

/-- dfir_ntfs/MFT.py:245-268, the loop of `apply_update_sequence_array`.  `usn` is
`sequence_number_in_usa_bytes`; the item assignments 262-263 are `List.set` (their indices are
checked: an index outside of the buffer, or a short `update_bytes`, is an `IndexError`). -/
def applyUsaLoop (usn : Bytes) (usaOffset usaSize : Nat) (i applied : Nat) (data : Bytes) :
    Except Exc (Bytes × Nat) :=
  if i < usaSize then
    let updateBytes := slice data (usaOffset + i * 2) (usaOffset + i * 2 + 2)      -- 248-249
    let offsetInFrs := i * updateSequenceStride - 2                                -- 251
    let sectorBytes := slice data offsetInFrs (offsetInFrs + 2)                    -- 252
    if usn ≠ sectorBytes ∧ applied * updateSequenceStride < firstFreeByteOffset data then
      .error .FileRecordSegmentException                                           -- 254-256
    else if usn ≠ sectorBytes ∧ applied > 0 then .ok (data, applied)               -- 257-260
    else
      match updateBytes with
      | [b0, b1] =>
        if offsetInFrs + 1 < data.length then
          applyUsaLoop usn usaOffset usaSize (i + 1) (applied + 1)
            ((data.set offsetInFrs b0).set (offsetInFrs + 1) b1)                   -- 262-266
        else .error .IndexError
      | _ => .error .IndexError
  else .ok (data, applied)                                                         -- 268
termination_by usaSize - i

/-- dfir_ntfs/MFT.py:240-268 `apply_update_sequence_array`. -/
def applyUsa (usaOffset usaSize : Nat) (data : Bytes) : Except Exc (Bytes × Nat) :=
  applyUsaLoop (slice data usaOffset (usaOffset + 2)) usaOffset usaSize 1 0 data

/-- dfir_ntfs/MFT.py:270-289 `validate_file_record_segment_header`. -/
def validateHeader (data : Bytes) (usaOffset usaSize : Nat) : Except Exc Unit :=
  let size := fileRecordSegmentSize data
  if size ∉ fileRecordSegmentSizesSupported then .error .FileRecordSegmentException            -- 275
  else if size > data.length then .error .FileRecordSegmentException                           -- 278
  else
    let firstFree := firstFreeByteOffset data
    if firstFree < 42 ∨ firstFree > size then .error .FileRecordSegmentException               -- 283
    else
      let firstAttr := firstAttributeOffset data
      if firstAttr < 8 ∨ firstAttr % 8 ≠ 0 ∨ (firstAttr : Int) > (size : Int) - 24
          ∨ firstAttr < usaOffset + usaSize * 2 then .error .FileRecordSegmentException        -- 288
      else .ok ()

/-- dfir_ntfs/MFT.py:197-216, the constructor. -/
def FileRecordSegment.init (buf : Bytes) (applyArray : Bool := true) (suggested : Option Nat := none) :
    Except Exc FileRecordSegment :=
  if buf.length ∉ fileRecordSegmentSizesSupported then .error .FileRecordSegmentException      -- 202
  else
    match parseMultiSectorHeader buf applyArray with                                           -- 206
    | .error e => .error e
    | .ok (usaOffset, usaSize) =>
      if applyArray then
        match applyUsa usaOffset usaSize buf with                                              -- 212
        | .error e => .error e
        | .ok (data, applied) =>
          if applied = 0 then .error .FileRecordSegmentException                               -- 213
          else
            match validateHeader data usaOffset usaSize with                                   -- 216
            | .error e => .error e
            | .ok () => .ok ⟨data, usaOffset, usaSize, usaOffset < 48, suggested⟩
      else
        match validateHeader buf usaOffset usaSize with                                        -- 216
        | .error e => .error e
        | .ok () => .ok ⟨buf, usaOffset, usaSize, usaOffset < 48, suggested⟩

/-- An attribute record as yielded by the enumeration (dfir_ntfs/MFT.py:485-500, 525-558).  Names
are kept as raw UTF-16LE bytes: the decoding to `str` (line 413) is not modelled. -/
inductive AttributeRecord where
  | resident (typeCode : Nat) (name : Option Bytes) (value : Bytes)
  | nonresident (typeCode : Nat) (name : Option Bytes) (mappingPairs : Bytes)
      (lowestVcn highestVcn : Nat) (fileSize : Int) (dataRuns : List Run)
  deriving DecidableEq, Repr

/-- dfir_ntfs/MFT.py:375-459: A yielded attribute together with the place it was read from: `pos` and `record_length` of the
loop.  The place is ghost information (the Python objects do not carry it). -/
structure LocatedAttribute where
  pos : Nat
  len : Nat
  attr : AttributeRecord
  deriving DecidableEq, Repr

/-- dfir_ntfs/MFT.py:375-459: Result of running the generator `attributes()` to its end: the yielded items, the exception that
ended it, and the value left in `self.frs_real_size`. -/
structure AttributesResult where
  items : List LocatedAttribute
  err : Option Exc
  realSize : Option Nat
  deriving DecidableEq, Repr

/-- dfir_ntfs/Attributes.py:27 `ATTR_TYPE_END`. -/
def attrTypeEnd : Nat := 0xFFFFFFFF

/-- dfir_ntfs/MFT.py:401-417: the name of the attribute record at `pos`, as raw UTF-16LE bytes. -/
def decodeAttributeName (data : Bytes) (pos formCode nameLength nameOffset : Nat) : Except Exc (Option Bytes) :=
  if nameLength > 0 then
    if nameOffset % 2 ≠ 0 ∨ (formCode = 1 ∧ nameOffset < 64) ∨ (formCode = 0 ∧ nameOffset < 24) then
      .error .AttributeException                                                             -- 405
    else if pos + nameOffset + nameLength * 2 > firstFreeByteOffset data then
      .error .AttributeException                                                             -- 408
    else if (slice data (pos + nameOffset) (pos + nameOffset + nameLength * 2)).length ≠ nameLength * 2 then
      .error .AttributeException                                                             -- 415
    else .ok (some (slice data (pos + nameOffset) (pos + nameOffset + nameLength * 2)))      -- 411-413
  else .ok none                                                                              -- 417

/-- dfir_ntfs/MFT.py:420-437: the rest of a nonresident attribute record (48 more header bytes,
format `<QQHB5sqqq`), with the constructor of `AttributeRecordNonresident` (549-558), which decodes
the mapping pairs. -/
def decodeNonresident (data : Bytes) (pos typeCode recordLength nameLength nameOffset : Nat)
    (name : Option Bytes) : Except Exc AttributeRecord :=
  if (slice data (pos + 16) (pos + 64)).length ≠ 48 then .error .AttributeException          -- 421
  else if u64 data (pos + 16) > u64 data (pos + 24) then .error .AttributeException          -- 427
  else if u16 data (pos + 32) ≥ recordLength ∨ (nameLength = 0 ∧ u16 data (pos + 32) < 64)
      ∨ (nameLength > 0 ∧ u16 data (pos + 32) < nameOffset + nameLength * 2) then
    .error .AttributeException                                                               -- 430
  else if leInt (slice data (pos + 56) (pos + 64)) < 0
      ∨ leInt (slice data (pos + 56) (pos + 64)) > leInt (slice data (pos + 48) (pos + 56))
      ∨ leInt (slice data (pos + 40) (pos + 48)) < leInt (slice data (pos + 48) (pos + 56)) then
    .error .AttributeException                                                               -- 433
  else
    match decodeMappingPairs (slice data (pos + u16 data (pos + 32)) (pos + recordLength)) with
    | .error e => .error e                                                                   -- 558 (from 437)
    | .ok runs => .ok (.nonresident typeCode name (slice data (pos + u16 data (pos + 32)) (pos + recordLength))
        (u64 data (pos + 16)) (u64 data (pos + 24)) (leInt (slice data (pos + 48) (pos + 56))) runs)  -- 436-437

/-- dfir_ntfs/MFT.py:440-455: the rest of a resident attribute record (8 more header bytes, format
`<LHBB`). -/
def decodeResident (data : Bytes) (pos typeCode recordLength nameLength nameOffset : Nat)
    (name : Option Bytes) : Except Exc AttributeRecord :=
  if (slice data (pos + 16) (pos + 24)).length ≠ 8 then .error .AttributeException           -- 441
  else if u16 data (pos + 20) < 8 ∨ u16 data (pos + 20) % 8 ≠ 0 then .error .AttributeException  -- 445
  else if u16 data (pos + 20) + u32 data (pos + 16) > recordLength ∨ (nameLength = 0 ∧ u16 data (pos + 20) < 24)
      ∨ (nameLength > 0 ∧ u16 data (pos + 20) < nameOffset + nameLength * 2) then
    .error .AttributeException                                                               -- 448
  else if (slice data (pos + u16 data (pos + 20)) (pos + u16 data (pos + 20) + u32 data (pos + 16))).length
      ≠ u32 data (pos + 16) then
    .error .AttributeException                                                               -- 452
  else .ok (.resident typeCode name
      (slice data (pos + u16 data (pos + 20)) (pos + u16 data (pos + 20) + u32 data (pos + 16))))  -- 451, 455

/-- dfir_ntfs/MFT.py:398-457, one iteration of the loop of `attributes()` after the end-of-record
checks: decode the attribute record at `pos`, whose partial header (16 bytes, format `<LLBBHHH`,
line 382) is present.  Returns the attribute and `record_length`. -/
def decodeAttribute (data : Bytes) (pos : Nat) : Except Exc (AttributeRecord × Nat) :=
  if u32 data (pos + 4) < 8 ∨ u32 data (pos + 4) % 8 ≠ 0 ∨ pos + u32 data (pos + 4) > firstFreeByteOffset data then
    .error .AttributeException                                                               -- 398
  else
    match decodeAttributeName data pos (u8 data (pos + 8)) (u8 data (pos + 9)) (u16 data (pos + 10)) with
    | .error e => .error e
    | .ok name =>
      match
        (if u8 data (pos + 8) = 1 then                                                       -- 419
          decodeNonresident data pos (u32 data pos) (u32 data (pos + 4)) (u8 data (pos + 9)) (u16 data (pos + 10)) name
        else if u8 data (pos + 8) = 0 then                                                   -- 439
          decodeResident data pos (u32 data pos) (u32 data (pos + 4)) (u8 data (pos + 9)) (u16 data (pos + 10)) name
        else .error .AttributeException) with                                                -- 457
      | .error e => .error e
      | .ok a => .ok (a, u32 data (pos + 4))

/-- A successfully decoded attribute has a positive length (needed for termination). -/
theorem decodeAttribute_length {data pos a n} (h : decodeAttribute data pos = .ok (a, n)) :
    8 ≤ n ∧ n % 8 = 0 ∧ pos + n ≤ firstFreeByteOffset data := by
  unfold decodeAttribute at h
  split at h
  · cases h
  rename_i hlen
  split at h
  · cases h
  split at h
  · cases h
  · cases h; omega

/-- dfir_ntfs/MFT.py:379-459, the loop of `attributes()`. -/
def attributesLoop (data : Bytes) (pos : Nat) : AttributesResult :=
  if pos < firstFreeByteOffset data then
    let headerLength := (slice data pos (pos + 16)).length                                   -- 380
    if headerLength = 16 then
      if u32 data pos = attrTypeEnd then ⟨[], none, some (pos + 4)⟩                          -- 394-396
      else
        match h : decodeAttribute data pos with
        | .error e => ⟨[], some e, none⟩
        | .ok (a, n) =>
          have := decodeAttribute_length h
          let r := attributesLoop data (pos + n)                                             -- 459
          ⟨⟨pos, n, a⟩ :: r.items, r.err, r.realSize⟩
    else if headerLength ≥ 4 then                                                            -- 383
      if u32 data pos = attrTypeEnd then ⟨[], none, some (pos + 4)⟩                          -- 386-388
      else ⟨[], some .AttributeException, none⟩                                              -- 390
    else ⟨[], some .AttributeException, none⟩                                                -- 392
  else ⟨[], none, none⟩
termination_by firstFreeByteOffset data - pos

/-- dfir_ntfs/MFT.py:375-459 `attributes`. -/
def FileRecordSegment.attributes (f : FileRecordSegment) : AttributesResult :=
  attributesLoop f.data (firstAttributeOffset f.data)

/-- dfir_ntfs/MFT.py:363-373 `get_slack` (called before any other enumeration of the attributes):
the enumeration is run first and its exception, if any, propagates. -/
def FileRecordSegment.slack (f : FileRecordSegment) : Except Exc (Option Bytes) :=
  match f.attributes.err with
  | some e => .error e
  | none =>
    match f.attributes.realSize with
    | none => .ok none
    | some n => .ok (some (f.data.drop n))

end Verif.MFT
