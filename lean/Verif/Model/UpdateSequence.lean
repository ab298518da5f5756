/-
The fix-up loop shared by index buffers and log pages, and the two functions around it:
dfir_ntfs/Attributes.py:175-218 and dfir_ntfs/LogFile.py:134-185.
-/
import Verif.Basic.Exc
import Verif.Basic.Crc32
namespace Verif

/-- dfir_ntfs/Attributes.py:196-210 and dfir_ntfs/LogFile.py:168-182 (the same loop): `usn` is
`sequence_number_in_usa_bytes`.  `.ok none` stands for a sequence number mismatch (`return` in
Attributes.py:204-205, `raise UpdateSequenceArrayException` in LogFile.py:176-177).  The item
assignments are `List.set`, with the bounds checks of Python. -/
def usaLoop (usn : Bytes) (usaOffset usaSize : Nat) (i : Nat) (data : Bytes) : Except Exc (Option Bytes) :=
  if i < usaSize then
    let updateBytes := slice data (usaOffset + i * 2) (usaOffset + i * 2 + 2)
    let offsetInBuf := i * 512 - 2
    let sectorBytes := slice data offsetInBuf (offsetInBuf + 2)
    if usn ≠ sectorBytes then .ok none
    else
      match updateBytes with
      | [b0, b1] =>
        if offsetInBuf + 1 < data.length then
          usaLoop usn usaOffset usaSize (i + 1) ((data.set offsetInBuf b0).set (offsetInBuf + 1) b1)
        else .error .IndexError
      | _ => .error .IndexError
  else .ok (some data)
termination_by usaSize - i

/-- dfir_ntfs/Attributes.py:175-218 `VerifyAndUnprotectIndexSectors`: `none` stands for `None`. -/
def verifyAndUnprotectIndexSectors (data : Bytes) : Except Exc (Option Bytes) :=
  if data.length < 2 * 512 ∨ data.length % 512 ≠ 0 then .ok none                          -- 180
  else
    let usaOffset := u16 data 4                                                           -- 183
    let usaSize := u16 data 6
    if usaOffset < 40 ∨ usaOffset > 512 - 6 then .ok none                                 -- 185
    else if usaSize < 2 ∨ (usaSize - 1) * 512 ≠ data.length then .ok none                 -- 188
    else if usaOffset + usaSize * 2 ≥ data.length then .ok none                           -- 191
    else
      match usaLoop (slice data usaOffset (usaOffset + 2)) usaOffset usaSize 1 data with  -- 194-210
      | .error e => .error e
      | .ok none => .ok none
      | .ok (some d) =>
        if slice d 0 4 ≠ [0x49, 0x4E, 0x44, 0x58] then .ok none                           -- 214-216
        else .ok (some d)

/-- dfir_ntfs/LogFile.py:155-156: the buffer with the update sequence array set to zeros (slice
assignment of a string of the same length as the slice). -/
def zeroUsa (data : Bytes) (usaOffset usaSize : Nat) : Bytes :=
  data.take usaOffset ++ zeros (usaSize * 2) ++ data.drop (usaOffset + usaSize * 2)

/-- dfir_ntfs/LogFile.py:134-185 `UnprotectSectors`: the buffer and the offset of the end of the
update sequence array. -/
def unprotectSectors (data : Bytes) : Except Exc (Bytes × Nat) :=
  if data.length < 2 * 512 ∨ data.length % 512 ≠ 0 then .error .UpdateSequenceArrayException        -- 137
  else
    let usaOffset := u16 data 4                                                                     -- 140
    let usaSize := u16 data 6
    if usaOffset < 8 ∨ usaOffset > 512 - 6 then .error .UpdateSequenceArrayException                -- 142
    else if usaSize < 2 ∨ (usaSize - 1) * 512 ≠ data.length then .error .UpdateSequenceArrayException -- 145
    else if usaOffset + usaSize * 2 ≥ data.length then .error .UpdateSequenceArrayException         -- 148
    else if slice data (usaOffset + 4) (usaOffset + 8) = [0x43, 0x52, 0x43, 0x34] ∧
        u32 data usaOffset = crc32 (zeroUsa data usaOffset usaSize) then                            -- 151-162
      .ok (data, usaOffset + usaSize * 2)
    else
      match usaLoop (slice data usaOffset (usaOffset + 2)) usaOffset usaSize 1 data with            -- 166-182
      | .error e => .error e
      | .ok none => .error .UpdateSequenceArrayException
      | .ok (some d) => .ok (d, usaOffset + usaSize * 2)                                            -- 184-185

end Verif
