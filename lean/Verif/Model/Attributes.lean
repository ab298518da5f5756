/-
Model of dfir_ntfs/Attributes.py: file attribute flags, FILETIME and GUID timestamps, `$FILE_NAME`,
`$ATTRIBUTE_LIST`, index roots and index buffers, `$INDEX_ALLOCATION`, `$EA`.
-/
import Verif.Model.UpdateSequence
import Verif.Basic.Str
import Verif.Basic.Sort
namespace Verif.Attributes

/-! ### File attribute flags -/

/-- dfir_ntfs/Attributes.py:59-80, 86-108 `FILE_ATTR_LIST` (in source order). -/
def fileAttrList : List (Nat × Str) := [
  (0x0001, Str.ofString "READ_ONLY"), (0x0002, Str.ofString "HIDDEN"), (0x0004, Str.ofString "SYSTEM"),
  (0x0010, Str.ofString "DIRECTORY"), (0x0020, Str.ofString "ARCHIVE"), (0x0040, Str.ofString "DEVICE"),
  (0x0080, Str.ofString "NORMAL"), (0x0100, Str.ofString "TEMPORARY"), (0x0200, Str.ofString "SPARSE"),
  (0x0400, Str.ofString "REPARSE_POINT"), (0x0800, Str.ofString "COMPRESSED"), (0x1000, Str.ofString "OFFLINE"),
  (0x2000, Str.ofString "NOT_CONTENT_INDEXED"), (0x4000, Str.ofString "ENCRYPTED"),
  (0x8000, Str.ofString "INTEGRITY_STREAM"), (0x20000, Str.ofString "NO_SCRUB_DATA"),
  (0x400000, Str.ofString "RECALL_ON_DATA_ACCESS"), (0x40000, Str.ofString "RECALL_ON_OPEN"),
  (0x10000, Str.ofString "VIRTUAL"), (0x80000, Str.ofString "PINNED"), (0x100000, Str.ofString "UNPINNED")]

/-- dfir_ntfs/Attributes.py:146-149: the list built by the loop over the sorted keys. -/
def fileAttributeNames (v : Nat) : List Str :=
  ((sortBy (fun p => (p.1 : Int)) fileAttrList).filter fun p => v &&& p.1 > 0).map (·.2)

/-- dfir_ntfs/Attributes.py:143-151 `ResolveFileAttributes`. -/
def resolveFileAttributes (v : Nat) : Str := pyJoin (Str.ofString " | ") (fileAttributeNames v)

/-! ### Timestamps -/

/-- dfir_ntfs/Attributes.py:157, 168 and dfir_ntfs/WSL.py:12 (the rounding in `timedelta`): `n / d` rounded to the nearest integer, ties to even. -/
def roundHalfEven (n d : Nat) : Nat :=
  if 2 * (n % d) < d then n / d
  else if 2 * (n % d) > d then n / d + 1
  else if (n / d) % 2 = 0 then n / d else n / d + 1

/-- Python's `Timestamp / 10` (true division of integers gives the IEEE double that is nearest to
the quotient, ties to even), converted to an integer number of microseconds as
`datetime.timedelta(microseconds = x)` does for a float (nearest integer, ties to even).  A double
has 53 significant bits; `k` is the weight of the lowest one: below `2^53` the double is a multiple
of `2^-(52 - k)`, from `2^53` on it is a multiple of `2^(k - 52)`.  For quotients below 1 the real
double has more fraction bits than the 52 used here; the nearest integer is the same. -/
def microsecondsOfTenths (t : Nat) : Nat :=
  let k := Nat.log2 (t / 10)
  if k ≤ 52 then roundHalfEven (roundHalfEven (t * 2 ^ (52 - k)) 10) (2 ^ (52 - k))
  else roundHalfEven t (10 * 2 ^ (k - 52)) * 2 ^ (k - 52)

/-- Microseconds from 1601-01-01 to 10000-01-01, the first moment `datetime` cannot represent
(21 periods of 400 years, less the 366 days of the year 10000). -/
def microsecondsFrom1601 : Nat := (21 * 146097 - 366) * 86400000000

/-- dfir_ntfs/Attributes.py:153-162 `DecodeFiletime` (with the default `DoNotRaise`): the datetime as
the number of microseconds since 1601-01-01 (which determines it), or `None` when the date is not
representable (`OverflowError`, caught at 158). -/
def decodeFiletime (timestamp : Nat) : Option Nat :=
  if microsecondsOfTenths timestamp < microsecondsFrom1601 then some (microsecondsOfTenths timestamp) else none

/-- Microseconds from 1582-10-15 to 10000-01-01: 1582-10-15 is 6653 days before 1601-01-01 (18 years
and 78 days, with the leap years 1584, 1588, 1592, 1596 and 1600). -/
def microsecondsFrom1582 : Nat := (21 * 146097 - 366 + 6653) * 86400000000

/-- dfir_ntfs/Attributes.py:164-173 `DecodeGUIDTime`: microseconds since 1582-10-15, or `None`. -/
def decodeGuidTime (timestamp : Nat) : Option Nat :=
  if microsecondsOfTenths timestamp < microsecondsFrom1582 then some (microsecondsOfTenths timestamp) else none

/-! ### `$FILE_NAME` (dfir_ntfs/Attributes.py:449-492) -/

/-- dfir_ntfs/Attributes.py:456-459 `get_parent_directory`. -/
def fileNameParent (value : Bytes) : Except Exc Nat := unpackLE 8 (slice value 0 8)
/-- dfir_ntfs/Attributes.py:468-471 `get_flags`. -/
def fileNameFlags (value : Bytes) : Except Exc Nat := unpackLE 1 (slice value 65 66)
/-- dfir_ntfs/Attributes.py:463-466, 473-477 `get_file_name`. -/
def fileNameName (value : Bytes) : Except Exc Str :=
  match unpackLE 1 (slice value 64 65) with
  | .error e => .error e
  | .ok n => .ok (utf16Decode (slice value 66 (66 + 2 * n)))

/-! ### `$ATTRIBUTE_LIST` (dfir_ntfs/Attributes.py:539-574) -/

/-- dfir_ntfs/Attributes.py:539 `AttributeListEntry`. -/
structure AttributeListEntry where
  typeCode : Nat
  name : Option Str
  instanceNumber : Nat
  lowestVcn : Nat
  segmentReference : Nat
  deriving DecidableEq, Repr

/-- dfir_ntfs/Attributes.py:569-572, 773-776, 865-868: rounding up to a multiple of 8. -/
def align8 (n : Nat) : Nat := if n % 8 = 0 then n else n + 8 - n % 8

theorem align8_ge (n : Nat) : n ≤ align8 n := by unfold align8; split <;> omega

/-- dfir_ntfs/Attributes.py:547-574, the loop of `AttributeList.entries`.  It never raises. -/
def attributeListLoop (value : Bytes) (pos : Nat) : List AttributeListEntry :=
  if pos < value.length then
    let header := slice value pos (pos + 26)                                             -- 549
    if header.length ≠ 26 then []                                                        -- 550
    else
      let typeCode := u32 header 0                                                       -- 553
      let recordLength := u16 header 4
      let nameLength := u8 header 6
      let nameOffset := u8 header 7
      let lowestVcn := u64 header 8
      let segmentReference := u64 header 16
      let instanceNumber := u16 header 24
      if recordLength < 26 then []                                                       -- 555
      else if nameLength > 0 ∧ nameOffset + nameLength * 2 > recordLength then []        -- 558-560
      else
        let name := if nameLength > 0 then
          some (utf16Decode (slice value (pos + nameOffset) (pos + nameOffset + nameLength * 2)))   -- 562-563
          else none                                                                      -- 565
        ⟨typeCode, name, instanceNumber, lowestVcn, segmentReference⟩ ::
          attributeListLoop value (pos + align8 recordLength)                            -- 567-574
  else []
termination_by value.length - pos
decreasing_by
  have := align8_ge recordLength
  show value.length - (pos + align8 recordLength) < value.length - pos
  have _h26 : ¬ recordLength < 26 := by assumption
  omega

/-- dfir_ntfs/Attributes.py:544-574 `AttributeList.entries`. -/
def attributeListEntries (value : Bytes) : List AttributeListEntry := attributeListLoop value 0

/-! ### Index entries (dfir_ntfs/Attributes.py:660-876) -/

/-- An `IndexEntry` object: the position of the entry in its node and the rest of the node from
there on (`index_entry_raw`, dfir_ntfs/Attributes.py:763 and 852). -/
structure IndexEntry where
  pos : Nat
  raw : Bytes
  deriving DecidableEq, Repr

/-- dfir_ntfs/Attributes.py:692-695 `get_file_reference`. -/
def IndexEntry.fileReference (e : IndexEntry) : Except Exc Nat := unpackLE 8 (slice e.raw 0 8)
/-- dfir_ntfs/Attributes.py:697-700 `get_length`. -/
def IndexEntry.length (e : IndexEntry) : Except Exc Nat := unpackLE 2 (slice e.raw 8 10)
/-- dfir_ntfs/Attributes.py:702-705 `get_attribute_length`. -/
def IndexEntry.attributeLength (e : IndexEntry) : Except Exc Nat := unpackLE 2 (slice e.raw 10 12)
/-- dfir_ntfs/Attributes.py:707-710 `get_flags`. -/
def IndexEntry.flags (e : IndexEntry) : Except Exc Nat := unpackLE 2 (slice e.raw 12 14)
/-- dfir_ntfs/Attributes.py:712-718 `get_attribute`. -/
def IndexEntry.attribute (e : IndexEntry) : Except Exc (Option Bytes) :=
  match e.attributeLength with
  | .error x => .error x
  | .ok n =>
    match e.flags with
    | .error x => .error x
    | .ok fl => if fl &&& 2 = 0 ∧ n > 0 then .ok (some (slice e.raw 16 (16 + n))) else .ok none

/-- dfir_ntfs/Attributes.py:761-778 (`stopAtEnd = false`, `IndexRoot.index_entries`) and 850-870
(`stopAtEnd = true`, `IndexBuffer.index_entries`): the loop.  `limit` is the offset of the first free
byte, counted like `pos`. -/
def indexEntriesLoop (stopAtEnd : Bool) (node : Bytes) (limit : Nat) (pos : Nat) : Gen IndexEntry :=
  if pos < limit ∧ pos < node.length then
    let entry : IndexEntry := ⟨pos, node.drop pos⟩                                  -- 763-764
    match entry.length with                                                         -- 766
    | .error e => .fail e
    | .ok len =>
      if len < 16 then .done                                                        -- 768
      else
        match entry.attributeLength with                                            -- 768
        | .error e => .fail e
        | .ok alen =>
          if alen = 0 then .done
          else if stopAtEnd then
            match entry.flags with                                                  -- 862
            | .error e => .cons entry (.fail e)
            | .ok fl =>
              if fl &&& 2 > 0 then .cons entry .done                                -- 863
              else .cons entry (indexEntriesLoop stopAtEnd node limit (pos + align8 len))
          else .cons entry (indexEntriesLoop stopAtEnd node limit (pos + align8 len))
  else .done
termination_by node.length - pos
decreasing_by all_goals (have := align8_ge len; omega)

/-- dfir_ntfs/Attributes.py:751-761: the header of a node at `base` (16 in an index root, 24 in an
index buffer), then the loop; `get_first_free_byte` is evaluated on every test of the loop, with the
same result. -/
def indexEntriesAt (stopAtEnd : Bool) (node : Bytes) (base : Nat) : Gen IndexEntry :=
  match unpackLE 4 (slice node base (base + 4)) with                                -- 669
  | .error e => .fail e
  | .ok first =>
    match unpackLE 4 (slice node (base + 4) (base + 8)) with                        -- 674
    | .error e => .fail e
    | .ok free => indexEntriesLoop stopAtEnd node (base + free) (base + first)

/-- dfir_ntfs/Attributes.py:757-778 `IndexRoot.index_entries`. -/
def indexRootEntries (value : Bytes) : Gen IndexEntry := indexEntriesAt false value 16
/-- dfir_ntfs/Attributes.py:846-870 `IndexBuffer.index_entries`. -/
def indexBufferEntries (buffer : Bytes) : Gen IndexEntry := indexEntriesAt true buffer 24
/-- dfir_ntfs/Attributes.py:872-876 `IndexBuffer.get_slack`. -/
def indexBufferSlack (buffer : Bytes) : Except Exc Bytes :=
  match unpackLE 4 (slice buffer 28 32) with
  | .error e => .error e
  | .ok free => .ok (buffer.drop (24 + free))

/-! ### `$INDEX_ALLOCATION` (dfir_ntfs/Attributes.py:878-936)

The fragmented file is represented by its contents; its `seek` and `read` are those of a plain file
here (C12 to C15 are about the real ones). -/

/-- dfir_ntfs/Attributes.py:884-904, the constructor: `index_buffer_size`. -/
def indexBufferSize (file : Bytes) : Except Exc (Option Nat) :=
  let raw := slice file 4 8                                                                   -- 888-889
  if raw.length ≠ 4 then .ok none                                                             -- 891
  else
    let usaSize := u16 raw 2                                                                  -- 892
    if usaSize < 3 then .ok none                                                              -- 893
    else
      let size := (usaSize - 1) * 512                                                         -- 894
      if ¬ (size > 0 ∧ size % 512 = 0 ∧ size ≤ 119808) then .ok none                          -- 896
      else
        let buf := slice file 0 size                                                          -- 897-898
        if buf.length ≠ size then .ok none                                                    -- 900
        else
          match verifyAndUnprotectIndexSectors buf with
          | .error e => .error e
          | .ok none => .ok none                                                              -- 902
          | .ok (some _) => .ok (some size)                                                   -- 904

/-- dfir_ntfs/Attributes.py:910-922, the loop of `index_buffers` (`size` is not zero). -/
def indexBuffersLoop (file : Bytes) (size : Nat) (i : Nat) : Gen Bytes :=
  let raw := slice file (i * size) (i * size + size)                                          -- 912-913
  if raw.length ≠ size ∨ size = 0 then .done                                              -- 915
  else
    match verifyAndUnprotectIndexSectors raw with                                             -- 918
    | .error e => .fail e
    | .ok none => indexBuffersLoop file size (i + 1)
    | .ok (some b) => .cons b (indexBuffersLoop file size (i + 1))                            -- 919-922
termination_by file.length - i * size
decreasing_by
  all_goals
    have h1 : raw.length = min (i * size + size - i * size) (file.length - i * size) := slice_length _ _ _
    rw [Nat.add_mul]
    omega

/-- dfir_ntfs/Attributes.py:906-922 `IndexAllocation.index_buffers`, after the constructor. -/
def indexBuffers (file : Bytes) : Gen Bytes :=
  match indexBufferSize file with
  | .error e => .fail e
  | .ok none => .done
  | .ok (some size) => indexBuffersLoop file size 0

/-! ### `$EA` (dfir_ntfs/Attributes.py:1025-1064) -/

/-- dfir_ntfs/Attributes.py:1059: One (name, flags, value) tuple; the name includes its null character. -/
structure ExtendedAttribute where
  name : Bytes
  flags : Nat
  value : Bytes
  deriving DecidableEq, Repr

/-- dfir_ntfs/Attributes.py:1032-1064, the loop of `EA.data_parsed`.  (`name[-1]` cannot fail: by the
check at 1047 the name is in the buffer.  The check at 1056 cannot succeed for the same reason.) -/
def eaLoop (buf : Bytes) : List ExtendedAttribute :=
  if buf.length ≤ 8 then []                                                       -- 1033
  else
    let next := u32 buf 0                                                             -- 1036
    let flags := u8 buf 4
    let nameLength := u8 buf 5
    let valueLength := u16 buf 6
    if 9 + nameLength + valueLength > buf.length ∨ next > buf.length then []          -- 1047
    else
      let name := slice buf 8 (8 + nameLength + 1)                                    -- 1050
      let value := slice buf (8 + nameLength + 1) (8 + nameLength + 1 + valueLength)  -- 1051
      if name.getLast? ≠ some 0 then []                                               -- 1053
      else if value.length ≠ valueLength then []                                      -- 1056
      else if next = 0 then [⟨name, flags, value⟩]                               -- 1059-1062
      else ⟨name, flags, value⟩ :: eaLoop (buf.drop next)                             -- 1064
termination_by buf.length
decreasing_by rw [List.length_drop]; omega

/-- dfir_ntfs/Attributes.py:1028-1064 `EA.data_parsed`. -/
def eaParsed (value : Bytes) : List ExtendedAttribute := eaLoop value

end Verif.Attributes
