/-
Model of dfir_ntfs/USN.py: the change journal.
-/
import Verif.Model.Attributes
namespace Verif.USN

/-! ### Reason and source codes -/

/-- dfir_ntfs/USN.py:10-32, 34-58 `ReasonList`, in source order. -/
def reasonList : List (Nat × Str) := [
  (0x00008000, Str.ofString "USN_REASON_BASIC_INFO_CHANGE"), (0x80000000, Str.ofString "USN_REASON_CLOSE"),
  (0x00020000, Str.ofString "USN_REASON_COMPRESSION_CHANGE"), (0x00000002, Str.ofString "USN_REASON_DATA_EXTEND"),
  (0x00000001, Str.ofString "USN_REASON_DATA_OVERWRITE"), (0x00000004, Str.ofString "USN_REASON_DATA_TRUNCATION"),
  (0x00000400, Str.ofString "USN_REASON_EA_CHANGE"), (0x00040000, Str.ofString "USN_REASON_ENCRYPTION_CHANGE"),
  (0x00000100, Str.ofString "USN_REASON_FILE_CREATE"), (0x00000200, Str.ofString "USN_REASON_FILE_DELETE"),
  (0x00010000, Str.ofString "USN_REASON_HARD_LINK_CHANGE"), (0x00004000, Str.ofString "USN_REASON_INDEXABLE_CHANGE"),
  (0x00800000, Str.ofString "USN_REASON_INTEGRITY_CHANGE"), (0x00000020, Str.ofString "USN_REASON_NAMED_DATA_EXTEND"),
  (0x00000010, Str.ofString "USN_REASON_NAMED_DATA_OVERWRITE"), (0x00000040, Str.ofString "USN_REASON_NAMED_DATA_TRUNCATION"),
  (0x00080000, Str.ofString "USN_REASON_OBJECT_ID_CHANGE"), (0x00002000, Str.ofString "USN_REASON_RENAME_NEW_NAME"),
  (0x00001000, Str.ofString "USN_REASON_RENAME_OLD_NAME"), (0x00100000, Str.ofString "USN_REASON_REPARSE_POINT_CHANGE"),
  (0x00000800, Str.ofString "USN_REASON_SECURITY_CHANGE"), (0x00200000, Str.ofString "USN_REASON_STREAM_CHANGE"),
  (0x00400000, Str.ofString "USN_REASON_TRANSACTED_CHANGE")]

/-- dfir_ntfs/USN.py:61-71 `SourceList`, in source order. -/
def sourceList : List (Nat × Str) := [
  (2, Str.ofString "USN_SOURCE_AUXILIARY_DATA"), (1, Str.ofString "USN_SOURCE_DATA_MANAGEMENT"),
  (4, Str.ofString "USN_SOURCE_REPLICATION_MANAGEMENT"), (8, Str.ofString "USN_SOURCE_CLIENT_REPLICATION_MANAGEMENT")]

/-- dfir_ntfs/USN.py:85 and 101: A hexadecimal digit, as `hex` prints it. -/
def hexDigit (d : Nat) : Nat := if d < 10 then 0x30 + d else 0x61 + (d - 10)

/-- dfir_ntfs/USN.py:85 and 101: The hexadecimal digits of a number, the lowest first. -/
def hexDigits (n : Nat) : List Nat :=
  if n < 16 then [hexDigit n] else hexDigit (n % 16) :: hexDigits (n / 16)
termination_by n

/-- Python's `hex(n)` for `n ≥ 0`. -/
def pyHex (n : Nat) : Str := Str.ofString "0x" ++ (hexDigits n).reverse

/-- dfir_ntfs/USN.py:78-82 and 94-98, the loops over the sorted keys: the names, and `flags_left`. -/
def resolveLoop (codes : Nat) : List (Nat × Str) → List Str × Nat → List Str × Nat
  | [], st => st
  | (flag, name) :: rest, (names, left) =>
    if codes &&& flag > 0 then resolveLoop codes rest (names ++ [name], left - (codes &&& flag))
    else resolveLoop codes rest (names, left)

/-- dfir_ntfs/USN.py:73-87 `ResolveReasonCodes` and 89-103 `ResolveSourceCodes` (which are the same
function on different tables). -/
def resolveCodes (table : List (Nat × Str)) (codes : Nat) : Str :=
  let st := resolveLoop codes (sortBy (fun p => (p.1 : Int)) table) ([], codes)
  pyJoin (Str.ofString " | ") (if st.2 > 0 then st.1 ++ [pyHex st.2] else st.1)       -- 84-87

/-- dfir_ntfs/USN.py:73-87 `ResolveReasonCodes`. -/
def resolveReasonCodes (codes : Nat) : Str := resolveCodes reasonList codes
/-- dfir_ntfs/USN.py:89-103 `ResolveSourceCodes`. -/
def resolveSourceCodes (codes : Nat) : Str := resolveCodes sourceList codes

/-! ### Records -/

/-- A record object: which class (dfir_ntfs/USN.py:131, 257) and its `record_raw`. -/
inductive Record where
  | v2or3 (isVersion3 : Bool) (raw : Bytes)
  | v4 (raw : Bytes)
  deriving DecidableEq, Repr

/-- dfir_ntfs/USN.py:134-162 and 260-276 (`record_raw`). -/
def Record.raw : Record → Bytes
  | .v2or3 _ raw => raw
  | .v4 raw => raw

/-- dfir_ntfs/USN.py:134-162 `USN_RECORD_V2_OR_V3.__init__`. -/
def recordV2or3 (raw : Bytes) (v3 : Bool) : Except Exc Record :=
  if v3 = false ∧ raw.length < 62 then .error .ValueError                             -- 144
  else if v3 = true ∧ raw.length < 62 + 16 then .error .ValueError                    -- 146
  else
    let length := u32 raw 0                                                           -- 149
    if length < 8 ∨ length % 8 ≠ 0 then .error .ValueError                            -- 151
    else if length > raw.length then .error .ValueError                               -- 154
    else if v3 = true ∧ u16 raw 4 ≠ 3 then .error .ValueError                         -- 158
    else if v3 = false ∧ u16 raw 4 ≠ 2 then .error .ValueError                        -- 161
    else .ok (.v2or3 v3 raw)

/-- dfir_ntfs/USN.py:260-276 `USN_RECORD_V4.__init__`. -/
def recordV4 (raw : Bytes) : Except Exc Record :=
  if raw.length < 80 then .error .ValueError                                          -- 263
  else
    let length := u32 raw 0                                                           -- 266
    if length < 8 ∨ length % 8 ≠ 0 then .error .ValueError                            -- 268
    else if length > raw.length then .error .ValueError                               -- 271
    else if u16 raw 4 ≠ 4 then .error .ValueError                                     -- 275
    else .ok (.v4 raw)

/-- dfir_ntfs/USN.py:105-129 `GetUsnRecord`. -/
def getUsnRecord (buf : Bytes) : Except Exc Record :=
  if buf.length < 8 then .error .ValueError                                           -- 108
  else
    let length := u32 buf 0                                                           -- 111
    let major := u16 buf 4
    if length < 8 then .error .ValueError                                             -- 112
    else if major = 2 then recordV2or3 (slice buf 0 length) false                     -- 117
    else if major = 3 then recordV2or3 (slice buf 0 length) true                      -- 120
    else if major = 4 then recordV4 (slice buf 0 length)                              -- 123
    else .error .NotImplementedError                                                  -- 129

/-- dfir_ntfs/USN.py:164-167, 278-281 `get_record_length`. -/
def Record.length (r : Record) : Except Exc Nat := unpackLE 4 (slice r.raw 0 4)

/-- dfir_ntfs/USN.py:137-140 `offset_increment`. -/
def Record.increment : Record → Nat
  | .v2or3 true _ => 16
  | _ => 0

/-- dfir_ntfs/USN.py:232-235 `get_file_name_length`, 237-240 `get_file_name_offset` (versions 2 and 3). -/
def Record.nameLength (r : Record) : Except Exc Nat := unpackLE 2 (slice r.raw (56 + r.increment) (58 + r.increment))
/-- dfir_ntfs/USN.py:237-240 `get_file_name_offset`. -/
def Record.nameOffset (r : Record) : Except Exc Nat := unpackLE 2 (slice r.raw (58 + r.increment) (60 + r.increment))

/-- dfir_ntfs/USN.py:242-252 `get_file_name` (versions 2 and 3). -/
def Record.fileName (r : Record) : Except Exc Str :=
  match r.nameOffset with
  | .error e => .error e
  | .ok offset =>
    match r.nameLength with
    | .error e => .error e
    | .ok length =>
      let raw := slice r.raw offset (offset + length)                                 -- 248
      if raw.length ≠ length then .error .ValueError                                  -- 249
      else .ok (utf16Decode raw)                                                      -- 252

/-- dfir_ntfs/USN.py:201-204, 309-312 `get_usn`. -/
def Record.usn : Record → Except Exc Nat
  | .v2or3 v3 raw => unpackLE 8 (slice raw (24 + (Record.v2or3 v3 raw).increment) (32 + (Record.v2or3 v3 raw).increment))
  | .v4 raw => unpackLE 8 (slice raw 40 48)
/-- dfir_ntfs/USN.py:212-215, 314-317 `get_reason`. -/
def Record.reason : Record → Except Exc Nat
  | .v2or3 v3 raw => unpackLE 4 (slice raw (40 + (Record.v2or3 v3 raw).increment) (44 + (Record.v2or3 v3 raw).increment))
  | .v4 raw => unpackLE 4 (slice raw 48 52)
/-- dfir_ntfs/USN.py:217-220, 319-322 `get_source_info`. -/
def Record.sourceInfo : Record → Except Exc Nat
  | .v2or3 v3 raw => unpackLE 4 (slice raw (44 + (Record.v2or3 v3 raw).increment) (48 + (Record.v2or3 v3 raw).increment))
  | .v4 raw => unpackLE 4 (slice raw 52 56)

/-- dfir_ntfs/USN.py:206-210 `get_timestamp` (versions 2 and 3): microseconds since 1601-01-01. -/
def Record.timestamp (r : Record) : Except Exc (Option Nat) :=
  match unpackLE 8 (slice r.raw (32 + r.increment) (40 + r.increment)) with
  | .error e => .error e
  | .ok t => .ok (Attributes.decodeFiletime t)

/-- The part shared by the getters of 128-bit references: `(hi << 64) | lo`. -/
def reference128 (raw : Bytes) (i : Nat) : Except Exc Nat :=
  match unpackLE 8 (slice raw i (i + 8)) with
  | .error e => .error e
  | .ok lo =>
    match unpackLE 8 (slice raw (i + 8) (i + 16)) with
    | .error e => .error e
    | .ok hi => .ok (hi <<< 64 ||| lo)

/-- dfir_ntfs/USN.py:179-188, 293-299 `get_file_reference_number`. -/
def Record.fileReference : Record → Except Exc Nat
  | .v2or3 false raw => unpackLE 8 (slice raw 8 16)
  | .v2or3 true raw => reference128 raw 8
  | .v4 raw => reference128 raw 8
/-- dfir_ntfs/USN.py:190-199, 301-307 `get_parent_file_reference_number`. -/
def Record.parentReference : Record → Except Exc Nat
  | .v2or3 false raw => unpackLE 8 (slice raw 16 24)
  | .v2or3 true raw => reference128 raw 24
  | .v4 raw => reference128 raw 24

/-- An extent of a version 4 record: an (offset, length) pair when the size is 16, else raw bytes. -/
inductive Extent where
  | pair (offset length : Int)
  | raw (b : Bytes)
  deriving DecidableEq, Repr

/-- dfir_ntfs/USN.py:347-359, the loop of `extents`. -/
def extentsLoop (raw : Bytes) (size : Nat) : Nat → Nat → List Extent
  | 0, _ => []
  | n + 1, pos =>
    let e := slice raw pos (pos + size)                                               -- 348
    if e.length ≠ size then []                                                        -- 349
    else (if size = 16 then .pair (leInt (slice e 0 8)) (leInt (slice e 8 16)) else .raw e) ::  -- 352-356
      extentsLoop raw size n (pos + size)                                             -- 358-359

/-- dfir_ntfs/USN.py:339-359 `extents` (version 4). -/
def Record.extents (r : Record) : Gen Extent :=
  match unpackLE 2 (slice r.raw 60 62) with                                           -- 342
  | .error e => .fail e
  | .ok n =>
    match unpackLE 2 (slice r.raw 62 64) with                                         -- 343
    | .error e => .fail e
    | .ok size => ⟨extentsLoop r.raw size n 64, none⟩

/-! ### The journal -/

/-- dfir_ntfs/USN.py:386-414, the loop of `usn_records`, for at most `fuel` iterations (`none` when it
has not ended by then).  The items are the records with the position at which they were found (which
the code does not return; it is added to state properties).  Lines 395-401 do nothing (`tmp_buf` is
`buf`, so `new_pos = pos`, and `pos` is a multiple of 8); they are modelled as they are written.
Simplification: `seek` with an offset of 2^63 or more is not modelled; no file is that large. -/
def usnRecordsLoop (file : Bytes) : Nat → Nat → Option (Gen (Nat × Record))
  | 0, _ => none
  | fuel + 1, pos =>
    if pos < file.length then                                                         -- 386
      let buf := slice file pos (pos + 8192)                                          -- 387-388
      if buf.all (· == 0) then usnRecordsLoop file fuel (pos + buf.length)            -- 391-393
      else
        let newPos := pos + buf.length - buf.length                                   -- 395
        let aligned := if newPos = 0 ∨ newPos % 8 = 0 then newPos else newPos - newPos % 8  -- 396-401
        let buf := slice file aligned (aligned + 8192)                                -- 403-404
        match getUsnRecord buf with                                                   -- 407
        | .error .ValueError => usnRecordsLoop file fuel (aligned + 8)                -- 408-411
        | .error .NotImplementedError => usnRecordsLoop file fuel (aligned + 8)
        | .error e => some (.fail e)
        | .ok r =>
          match r.length with                                                         -- 413-414
          | .error e => some (.cons (aligned, r) (.fail e))
          | .ok n => (usnRecordsLoop file fuel (aligned + n)).map (.cons (aligned, r))
    else some .done

/-- dfir_ntfs/USN.py:380-414 `ChangeJournalParser.usn_records`, run for at most one iteration per byte
of the file and one more. -/
def usnRecords (file : Bytes) : Option (Gen (Nat × Record)) := usnRecordsLoop file (file.length + 1) 0

end Verif.USN
