/-
Model of dfir_ntfs/addons/FAT.py:32-479: attributes, names, dates and the NT byte.

Warnings (`WARN_FUNC`) are not modelled.
-/
import Verif.Basic.Exc
import Verif.Basic.Utf16
namespace Verif.FAT

/-- dfir_ntfs/addons/FAT.py:100-109 `IsVolumeLabel` (0x3F is ATTR_LONG_NAME_MASK, 0x0F is ATTR_LONG_NAME,
0x10 is ATTR_DIRECTORY and 0x08 is ATTR_VOLUME_ID). -/
def isVolumeLabel (attributes : Nat) : Bool :=
  if attributes &&& 0x3F = 0x0F then false
  else decide (attributes &&& 0x18 = 0x08)

/-- dfir_ntfs/addons/FAT.py:81 `FORBIDDEN_CHARACTERS`. -/
def forbiddenCharacters : List Nat :=
  [0, 1, 2, 3, 4, 5, 6, 7, 8, 9, 10, 11, 12, 13, 14, 15, 16, 17, 18, 19, 20, 21, 22, 23, 24, 25, 26, 27, 28, 29, 30, 31,
   34, 42, 44, 46, 47, 58, 59, 60, 61, 62, 63, 91, 92, 93, 124]

/-- dfir_ntfs/addons/FAT.py:84 `FORBIDDEN_CHARACTERS_LABEL`. -/
def forbiddenCharactersLabel : List Nat := [0, 10, 13]

/-- dfir_ntfs/addons/FAT.py:87 `LOWERCASE`. -/
def lowercase : List Nat :=
  [97, 98, 99, 100, 101, 102, 103, 104, 105, 106, 107, 108, 109, 110, 111, 112, 113, 114, 115, 116, 117, 118, 119, 120, 121, 122]

/-- dfir_ntfs/addons/FAT.py:233-249 `validate_first`. -/
def validateFirst (char : Nat) : Bool :=
  if char = 0x20 then false
  else if char ∈ lowercase then false
  else if char = 0x05 then true
  else if char = 0x00 then true
  else if char ∈ forbiddenCharacters then false
  else true

/-- dfir_ntfs/addons/FAT.py:261-266: the loop over the other characters. -/
def validateRest : List UInt8 → Bool
  | [] => true
  | char :: rest =>
    if char.toNat ∈ lowercase then false
    else if char.toNat ∈ forbiddenCharacters then false
    else validateRest rest

/-- dfir_ntfs/addons/FAT.py:255: `b'.          '` and `b'..         '`. -/
def dotName : Bytes := [0x2E, 0x20, 0x20, 0x20, 0x20, 0x20, 0x20, 0x20, 0x20, 0x20, 0x20]
/-- dfir_ntfs/addons/FAT.py:255. -/
def dotDotName : Bytes := [0x2E, 0x2E, 0x20, 0x20, 0x20, 0x20, 0x20, 0x20, 0x20, 0x20, 0x20]

/-- dfir_ntfs/addons/FAT.py:222-268 `ValidateShortName`. -/
def validateShortName (name : Bytes) : Bool :=
  if name.length ≠ 11 then false                                                          -- 252
  else if name ∈ [dotName, dotDotName] then true                                          -- 255
  else if ¬ validateFirst (u8 name 0) then false                                          -- 258
  else validateRest (name.drop 1)

/-- dfir_ntfs/addons/FAT.py:286, 290, 294, 295: Python `bytes.rstrip(b' ')`. -/
def rstrip (b : Bytes) : Bytes := (b.reverse.dropWhile (· = 0x20)).reverse

/-- dfir_ntfs/addons/FAT.py:286, 290, 1298: `bytes.decode(encoding, errors = 'replace')` and `str.lower`: what a codepage makes of the bytes and
the case conversion depend on tables of the standard library, so they are parameters. -/
structure Codec where
  decode : Bytes → Str
  lower : Str → Str

/-- dfir_ntfs/addons/FAT.py:1154: The default encoding, 'ascii', with `str.lower` on the results of decoding it. -/
def ascii : Codec where
  decode b := b.map fun x => if x.toNat < 128 then x.toNat else 0xFFFD
  lower s := s.map fun c => if 65 ≤ c ∧ c ≤ 90 then c + 32 else c

/-- dfir_ntfs/addons/FAT.py:279-283: the first byte of a deleted entry, and the special case (KANJI). -/
def replaceFirst (name : Bytes) : Bytes :=
  if u8 name 0 = 0x00 ∨ u8 name 0 = 0xE5 then 0x5F :: name.drop 1
  else if u8 name 0 = 0x05 then 0xE5 :: name.drop 1
  else name

/-- dfir_ntfs/addons/FAT.py:270-304 `ParseShortName` with an encoding. -/
def parseShortName (codec : Codec) (name : Bytes) (lowerBase lowerExtension : Bool) : Option Str :=
  if ¬ validateShortName name then none
  else
    let name := replaceFirst name
    let base := codec.decode (rstrip (name.take 8))                                       -- 286
    let base := if lowerBase then codec.lower base else base
    let extension := codec.decode (rstrip (name.drop 8))                                  -- 290
    let extension := if lowerExtension then codec.lower extension else extension
    if extension.length > 0 then some (base ++ [0x2E] ++ extension) else some base        -- 297

/-- dfir_ntfs/addons/FAT.py:270-304 `ParseShortName` without an encoding: bytes. -/
def parseShortNameRaw (name : Bytes) : Option Bytes :=
  if ¬ validateShortName name then none
  else
    let name := replaceFirst name
    let base := rstrip (name.take 8)
    let extension := rstrip (name.drop 8)
    if extension.length > 0 then some (base ++ [0x2E] ++ extension) else some base

/-- dfir_ntfs/addons/FAT.py:317-324: remove everything from the first null character. -/
def cutNull : Bytes → Bytes
  | [] => []
  | [a] => [a]
  | a :: b :: rest => if a = 0 ∧ b = 0 then [] else a :: b :: cutNull rest

/-- dfir_ntfs/addons/FAT.py:306-360 `BuildLongName`.  (The list is reversed in place there; every caller
drops it afterwards.) -/
def buildLongName (longEntities : List Bytes) : Option Str :=
  if longEntities.length = 0 then none
  else
    let longName := utf16Decode (cutNull longEntities.reverse.flatten)
    if longName.length = 0 then none                                                      -- 327
    else if longName.length > 255 then some (longName.take 255)                           -- 330, 344
    else some longName

/-- dfir_ntfs/addons/FAT.py:367-373: one round of the checksum. -/
def checksumStep (checksum : Nat) (char : UInt8) : Nat :=
  let rotated := if checksum &&& 1 = 0 then checksum >>> 1 else (checksum >>> 1) ||| 0x80
  (rotated + char.toNat) &&& 0xFF

/-- dfir_ntfs/addons/FAT.py:362-375 `BuildChecksum`. -/
def buildChecksum (shortNameRaw : Bytes) : Except Exc Nat :=
  if shortNameRaw.length < 11 then .error .IndexError
  else .ok ((shortNameRaw.take 11).foldl checksumStep 0)

/-- dfir_ntfs/addons/FAT.py:377-397, the class of the standard library: A `datetime.date`. -/
structure Date where
  year : Nat
  month : Nat
  day : Nat
  deriving DecidableEq, Repr

/-- dfir_ntfs/addons/FAT.py:399-416, the class of the standard library: A `datetime.time`, with whole seconds. -/
structure Time where
  hour : Nat
  minute : Nat
  second : Nat
  deriving DecidableEq, Repr

/-- dfir_ntfs/addons/FAT.py:377-397, the constructor of `datetime.date`: The leap years of `datetime.date`. -/
def isLeap (year : Nat) : Bool := decide (year % 4 = 0 ∧ (year % 100 ≠ 0 ∨ year % 400 = 0))

/-- dfir_ntfs/addons/FAT.py:377-397, the constructor of `datetime.date`: The days of a month of `datetime.date`. -/
def daysInMonth (year month : Nat) : Nat :=
  if month = 2 then if isLeap year then 29 else 28
  else if month ∈ [4, 6, 9, 11] then 30
  else 31

/-- dfir_ntfs/addons/FAT.py:377-397 `DecodeFATDate`; `date(…)` raises ValueError when the month has fewer
days (the other bounds of `date` hold). -/
def decodeFATDate (value : Nat) : Option Date :=
  let day := value &&& 0x1F
  if day = 0 then none
  else
    let month := (value >>> 5) &&& 0x0F
    if month = 0 ∨ month > 12 then none
    else
      let year := (value >>> 9) &&& 0x7F
      if year > 127 then none
      else if day > daysInMonth (year + 1980) month then none
      else some ⟨year + 1980, month, day⟩

/-- dfir_ntfs/addons/FAT.py:399-416 `DecodeFATTime`. -/
def decodeFATTime (value : Nat) : Option Time :=
  let second := value &&& 0x1F
  if second > 29 then none
  else
    let minute := (value >>> 5) &&& 0x3F
    if minute > 59 then none
    else
      let hour := (value >>> 11) &&& 0x1F
      if hour > 23 then none
      else some ⟨hour, minute, second * 2⟩

/-- dfir_ntfs/addons/FAT.py:418-435 `NTBytePaddings`. -/
def ntBytePaddings : List (Nat × Nat) :=
  [(0x00, 0), (0xE4, 15), (0xE0, 14), (0xC4, 13), (0xC0, 12), (0xA4, 11), (0xA0, 10), (0x84, 9), (0x80, 8), (0x64, 7), (0x60, 6),
   (0x44, 5), (0x40, 4), (0x24, 3), (0x20, 2), (0x04, 1)]

/-- dfir_ntfs/addons/FAT.py:437-479: What `ParseNTByte` returns. -/
structure NTByte where
  lowercaseBase : Bool
  lowercaseExtension : Bool
  encrypted : Bool
  largeEfsHeader : Bool
  paddingSize : Option Nat
  deriving DecidableEq, Repr

/-- dfir_ntfs/addons/FAT.py:437-479 `ParseNTByte`; a missing key of the dictionary is a KeyError. -/
def parseNTByte (value : Nat) : Except Exc NTByte :=
  let encrypted := decide (value &&& 0x01 > 0)
  let lowercaseBase := decide (value &&& 0x08 > 0)
  let lowercaseExtension := decide (value &&& 0x10 > 0)
  if encrypted then
    match ntBytePaddings.find? (·.1 = value &&& 0xE4) with
    | none => .error .KeyError
    | some p => .ok ⟨lowercaseBase, lowercaseExtension, true, decide (value &&& 0x02 > 0), some p.2⟩
  else .ok ⟨lowercaseBase, lowercaseExtension, false, false, none⟩

end Verif.FAT
