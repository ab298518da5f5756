/-
Model of `ntfs_parser --move`: the report on a MoveTable (tracking.log), and of the texts in it.
-/
import Verif.Model.MoveTable
import Verif.Model.AttributeFields
import Verif.Model.Scripts.Text
namespace Verif.Scripts
open Verif.MoveTable

/-! ### Strings (dfir_ntfs/MoveTable.py:30-55) -/

/-- The upper half of Python's codec cp866 (dfir_ntfs/MoveTable.py:34); the lower half is ASCII. -/
def cp866Upper : List Nat := [
  0x410, 0x411, 0x412, 0x413, 0x414, 0x415, 0x416, 0x417, 0x418, 0x419, 0x41A, 0x41B, 0x41C, 0x41D, 0x41E, 0x41F,
  0x420, 0x421, 0x422, 0x423, 0x424, 0x425, 0x426, 0x427, 0x428, 0x429, 0x42A, 0x42B, 0x42C, 0x42D, 0x42E, 0x42F,
  0x430, 0x431, 0x432, 0x433, 0x434, 0x435, 0x436, 0x437, 0x438, 0x439, 0x43A, 0x43B, 0x43C, 0x43D, 0x43E, 0x43F,
  0x2591, 0x2592, 0x2593, 0x2502, 0x2524, 0x2561, 0x2562, 0x2556, 0x2555, 0x2563, 0x2551, 0x2557, 0x255D, 0x255C, 0x255B, 0x2510,
  0x2514, 0x2534, 0x252C, 0x251C, 0x2500, 0x253C, 0x255E, 0x255F, 0x255A, 0x2554, 0x2569, 0x2566, 0x2560, 0x2550, 0x256C, 0x2567,
  0x2568, 0x2564, 0x2565, 0x2559, 0x2558, 0x2552, 0x2553, 0x256B, 0x256A, 0x2518, 0x250C, 0x2588, 0x2584, 0x258C, 0x2590, 0x2580,
  0x440, 0x441, 0x442, 0x443, 0x444, 0x445, 0x446, 0x447, 0x448, 0x449, 0x44A, 0x44B, 0x44C, 0x44D, 0x44E, 0x44F,
  0x401, 0x451, 0x404, 0x454, 0x407, 0x457, 0x40E, 0x45E, 0xB0, 0x2219, 0xB7, 0x221A, 0x2116, 0xA4, 0x25A0, 0xA0]

/-- `Buffer.decode('cp866')` (dfir_ntfs/MoveTable.py:34): every byte is a character. -/
def cp866Char (b : UInt8) : Nat := if b.toNat < 128 then b.toNat else cp866Upper.getD (b.toNat - 128) 0

/-- The bytes 80 to 9F of Python's codec windows-1252 (dfir_ntfs/MoveTable.py:39); five of them are undefined. -/
def windows1252Upper : List (Option Nat) := [
  some 0x20AC, none, some 0x201A, some 0x192, some 0x201E, some 0x2026, some 0x2020, some 0x2021,
  some 0x2C6, some 0x2030, some 0x160, some 0x2039, some 0x152, none, some 0x17D, none,
  none, some 0x2018, some 0x2019, some 0x201C, some 0x201D, some 0x2022, some 0x2013, some 0x2014,
  some 0x2DC, some 0x2122, some 0x161, some 0x203A, some 0x153, none, some 0x17E, some 0x178]

/-- A byte in windows-1252 (dfir_ntfs/MoveTable.py:39). -/
def windows1252Char (b : UInt8) : Option Nat :=
  if b.toNat < 128 ∨ 160 ≤ b.toNat then some b.toNat else windows1252Upper.getD (b.toNat - 128) none

/-- `Buffer.decode('windows-1252')` (dfir_ntfs/MoveTable.py:38-41); `none` is an exception. -/
def windows1252 : Bytes → Option Str
  | [] => some []
  | b :: rest =>
    match windows1252Char b, windows1252 rest with
    | some c, some s => some (c :: s)
    | _, _ => none

/-- dfir_ntfs/MoveTable.py:30-55 `DecodeString`.  (cp866 decodes every buffer, so the cases of 46 and 49 do not occur.) -/
def decodeString (buffer : Bytes) : Str :=
  let s1 := buffer.map cp866Char                                                    -- 34
  match windows1252 buffer with                                                     -- 39
  | none => s1                                                                      -- 43
  | some s2 =>
    if s1 = s2 then s1                                                              -- 52
    else [0x22] ++ s1 ++ Str.ofString "\" (cp-866), \"" ++ s2 ++ Str.ofString "\" (windows-1252)"   -- 55

/-! ### GUIDs -/

/-- A lower-case hexadecimal digit (`str` of `uuid.UUID`, ntfs_parser:914). -/
def lowerHexDigit (d : Nat) : Nat := if d < 10 then 0x30 + d else 0x61 + (d - 10)

/-- Two hexadecimal digits for each byte (`str` of `uuid.UUID`, ntfs_parser:914). -/
def lowerHex (b : Bytes) : Str := b.flatMap fun x => [lowerHexDigit (x.toNat / 16), lowerHexDigit (x.toNat % 16)]

/-- `str(uuid.UUID(bytes_le = data))` of 16 bytes (ntfs_parser:914): the constructor reverses the first four bytes, the next two and
the next two; the text is made of groups of 8, 4, 4, 4 and 12 digits. -/
def guidText (data : Bytes) : Str :=
  let bytes := (slice data 0 4).reverse ++ (slice data 4 6).reverse ++ (slice data 6 8).reverse ++ data.drop 8
  let hex := lowerHex bytes
  pyJoin [0x2D] [hex.take 8, (hex.drop 8).take 4, (hex.drop 12).take 4, (hex.drop 16).take 4, hex.drop 20]

/-- dfir_ntfs/MoveTable.py:261-275: the timestamp of a GUID, microseconds since 1582-10-15. -/
def guidTimestamp (guid : Bytes) : Option Nat :=
  if Attributes.guidVersion guid = some 1 then Attributes.decodeGuidTime (Attributes.guidTime guid) else none

/-- `format_timestamp` (ntfs_parser:10-14) of a GUID timestamp. -/
def guidTimeText (t : Option Nat) : Str := formatTimestamp (t.map fun m => epoch1582 + m)

/-- `format_timestamp` (ntfs_parser:10-14) of a FILETIME. -/
def moveTimeText (t : Option Nat) : Str := formatTimestamp (t.map fun m => epoch1601 + m)

/-! ### The fields -/

/-- dfir_ntfs/MoveTable.py:105-117, of `Header.get_extended_header`: the machine ID as raw bytes.  (The header has at least 512 bytes, so
`struct.unpack` gets 92.) -/
def headerMachineIdRaw (header : Bytes) : Bytes := (slice header 40 56).takeWhile (· ≠ 0)

/-- dfir_ntfs/MoveTable.py:118, of `Header.get_extended_header`: the volume object ID. -/
def headerVolumeObjectId (header : Bytes) : Bytes := slice header 56 72

/-- dfir_ntfs/MoveTable.py:195-199 `LogEntry.get_object_id`. -/
def entryObjectId (entry : Bytes) : Bytes := slice entry 20 36

/-- dfir_ntfs/MoveTable.py:201-210 `LogEntry.get_droid`. -/
def entryDroid (entry : Bytes) : Bytes × Bytes := (slice entry 36 52, slice entry 52 68)

/-- dfir_ntfs/MoveTable.py:232-241 `LogEntry.get_birth_droid`. -/
def entryBirthDroid (entry : Bytes) : Bytes × Bytes := (slice entry 84 100, slice entry 100 116)

/-! ### The report -/

/-- ntfs_parser:906-908, 941-943: lines as they are written, and the line between sections. -/
def section_ (lines : List Str) : Str := pyJoin [0x0A] lines ++ Str.ofString "\n\n---\n\n"

/-- ntfs_parser:900-908: the section for the header. -/
def headerSection (header : Bytes) : Str :=
  section_ [Str.ofString "File header:",
    Str.ofString " * Machine ID: " ++ decodeString (headerMachineIdRaw header),
    Str.ofString " * Volume object ID: " ++ guidText (headerVolumeObjectId header)]

/-- ntfs_parser:911-943: the section for a log entry, with its timestamps. -/
def entrySection (entry : Bytes) (range : Option Nat × Option Nat) : Str :=
  section_ [Str.ofString "Object ID: " ++ guidText (entryObjectId entry), [],
    Str.ofString "Domain-relative object ID, volume: " ++ guidText (entryDroid entry).1,
    Str.ofString "Domain-relative object ID, file: " ++ guidText (entryDroid entry).2, [],
    Str.ofString "Machine ID: " ++ decodeString (machineIdRaw entry), [],
    Str.ofString "Birth domain-relative object ID, volume: " ++ guidText (entryBirthDroid entry).1,
    Str.ofString "Birth domain-relative object ID, file: " ++ guidText (entryBirthDroid entry).2, [],
    Str.ofString "GUID timestamps:",
    Str.ofString " * Object ID: " ++ guidTimeText (guidTimestamp (entryObjectId entry)),
    Str.ofString " * Domain-relative object ID, file: " ++ guidTimeText (guidTimestamp (entryDroid entry).2),
    Str.ofString " * Birth domain-relative object ID, file: " ++ guidTimeText (guidTimestamp (entryBirthDroid entry).2), [],
    Str.ofString "Timestamp (range): " ++ moveTimeText range.1 ++ Str.ofString " - " ++ moveTimeText range.2]

/-- ntfs_parser:910-943: the sections for some entries. -/
def entrySections : List Bytes → Option Exc → Gen Str
  | [], none => .done
  | [], some e => .fail e
  | entry :: rest, err =>
    match timestamp entry with
    | .error e => .fail e
    | .ok range => .cons (entrySection entry range) (entrySections rest err)

/-- ntfs_parser:893-943 `process_movetable`: what is written, a section at a time. -/
def processMoveTable (file : Bytes) : Gen Str :=
  let size := sectorSize file none                                                    -- 896
  match getHeader file size with                                                      -- 898
  | .error e => .fail e
  | .ok header => .cons (headerSection header) (entrySections (logEntries file size).items (logEntries file size).err)

end Verif.Scripts
