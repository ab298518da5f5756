/-
Model of dfir_ntfs/addons/exFAT.py:69-285: names, labels, timestamps, types of entries and the checksum of an
entry set.
-/
import Verif.Model.FAT.Directory
namespace Verif.ExFAT
open Verif.FAT (DateTime daysInMonth)

/-- dfir_ntfs/addons/exFAT.py:72-73 `FORBIDDEN_CHARACTERS`. -/
def forbiddenCharacters : List Nat :=
  [0, 1, 2, 3, 4, 5, 6, 7, 8, 9, 10, 11, 12, 13, 14, 15, 16, 17, 18, 19, 20, 21, 22, 23, 24, 25, 26, 27, 28, 29, 30, 31,
   34, 42, 47, 58, 60, 62, 63, 92, 124]

/-- dfir_ntfs/addons/exFAT.py:128-135, 161-168: remove everything from the first null character (the loop is the
same as that of dfir_ntfs/addons/FAT.py:317-324). -/
def cutNull (b : Bytes) : Bytes := FAT.cutNull b

/-- dfir_ntfs/addons/exFAT.py:118-152 `BuildName`: `none` is `None`, for the result and for the length. -/
def buildName (nameEntities : List Bytes) (nameLength : Option Nat) : Option Str :=
  if nameEntities.length = 0 then none
  else
    let name := utf16Decode (cutNull nameEntities.flatten)
    if name.length = 0 then none                                                          -- 138
    else
      match nameLength with
      | some n =>
        if name.length > n then some (name.take n)                                        -- 141
        else if name.any (decide <| · ∈ forbiddenCharacters) then none
        else if name ∈ [[0x2E], [0x2E, 0x2E]] then none
        else some name
      | none =>
        if name.any (decide <| · ∈ forbiddenCharacters) then none                         -- 144
        else if name ∈ [[0x2E], [0x2E, 0x2E]] then none                                   -- 149
        else some name

/-- dfir_ntfs/addons/exFAT.py:154-182 `BuildLabel`. -/
def buildLabel (labelRaw : Bytes) (labelLength : Nat) : Option Str :=
  let name := utf16Decode (cutNull labelRaw)
  if name.length = 0 then none
  else if name.length > labelLength then some (name.take labelLength)
  else if name.any (decide <| · ∈ forbiddenCharacters) then none
  else some name

/-- dfir_ntfs/addons/exFAT.py:184-224 `DecodeFATTimestamp`; `datetime(…)` raises ValueError when the month has
fewer days (the other bounds hold).  The seconds are even and at most 58, and at most 1.99 seconds are added, so
the sum stays in the same minute. -/
def decodeFATTimestamp (value value10ms : Nat) : Option DateTime :=
  let valueTime := value &&& 0xFFFF
  let valueDate := (value >>> 16) &&& 0xFFFFF
  let value10ms := if value10ms > 199 then 0 else value10ms                               -- 190
  let second := valueTime &&& 0x1F
  if second > 29 then none
  else
    let minute := (valueTime >>> 5) &&& 0x3F
    if minute > 59 then none
    else
      let hour := (valueTime >>> 11) &&& 0x1F
      if hour > 23 then none
      else
        let day := valueDate &&& 0x1F
        if day = 0 then none
        else
          let month := (valueDate >>> 5) &&& 0x0F
          if month = 0 ∨ month > 12 then none
          else
            let year := (valueDate >>> 9) &&& 0x7F
            if year > 127 then none
            else if day > daysInMonth (year + 1980) month then none                       -- 223
            else some ⟨⟨year + 1980, month, day⟩, ⟨hour, minute, second * 2 + value10ms / 100⟩, value10ms % 100 * 10000⟩

/-- dfir_ntfs/addons/exFAT.py:226-239 `DecodeFATTimezone`; `ctypes.c_int8(x).value` is `x - 256` for a byte of
128 or more. -/
def decodeFATTimezone (value : Nat) : Option Int :=
  if ¬ (value &&& 0x80 > 0) then none
  else
    let offset := value &&& 0x7F
    if offset &&& 0x40 = 0 then some offset
    else some (((offset ||| 0x80 : Nat) : Int) - 256)

/-- dfir_ntfs/addons/exFAT.py:241-247 `EntryTypeWithoutInUseBit`. -/
def withoutInUse (entryType : Nat) : Nat := if entryType &&& 0x80 > 0 then entryType - 0x80 else entryType

/-- dfir_ntfs/addons/exFAT.py:249-257 `DecodeEntryType`: the category (1 is a secondary entry). -/
def typeCategory (entryType : Nat) : Nat := (entryType >>> 6) &&& 1

/-- dfir_ntfs/addons/exFAT.py:249-257 `DecodeEntryType`: the in-use bit.  The type code and the importance are
not used. -/
def isInUse (entryType : Nat) : Bool := decide (entryType &&& 0x80 > 0)

/-- dfir_ntfs/addons/exFAT.py:259-265 `DecodeFlags`: (allocation possible, no FAT chain). -/
def decodeFlags (flags : Nat) : Bool × Bool := (decide (flags &&& 1 > 0), decide ((flags >>> 1) &&& 1 > 0))

/-- dfir_ntfs/addons/exFAT.py:278-283: one round of the checksum. -/
def setChecksumStep (checksum : Nat) (byte : UInt8) : Nat :=
  let rotated := if checksum &&& 1 > 0 then 0x8000 ||| (checksum >>> 1) else checksum >>> 1
  (rotated + byte.toNat) &&& 0xFFFF

/-- dfir_ntfs/addons/exFAT.py:273-285: the loop, from the byte with the index `idx`. -/
def setChecksumLoop : Bytes → (idx checksum : Nat) → Nat
  | [], _, checksum => checksum
  | byte :: rest, idx, checksum =>
    if idx ∈ [2, 3] then setChecksumLoop rest (idx + 1) checksum                          -- 275
    else setChecksumLoop rest (idx + 1) (setChecksumStep checksum byte)

/-- dfir_ntfs/addons/exFAT.py:267-285 `EntrySetChecksum`. -/
def entrySetChecksum (entrySetRaw : Bytes) : Except Exc Nat :=
  if entrySetRaw.length < 32 ∨ entrySetRaw.length % 32 ≠ 0 then .error .ValueError
  else .ok (setChecksumLoop entrySetRaw 0 0)

end Verif.ExFAT
