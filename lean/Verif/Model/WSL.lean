/-
Model of dfir_ntfs/WSL.py: Linux metadata in extended attributes.  (What is printed is in `Model/PrintInformation`.)
-/
import Verif.Model.Attributes
namespace Verif.WSL

/-- dfir_ntfs/WSL.py:17-20, 22-33 `LXXATTR.__init__` and `validate_header`. -/
def lxxattr (value : Bytes) : Except Exc Bytes :=
  if value.length < 12 then .error .ValueError                                        -- 25
  else if u16 value 2 ≠ 1 ∨ u16 value 0 ≠ 0 then .error .ValueError                   -- 28-31
  else .ok value

/-- dfir_ntfs/WSL.py:35-67, the loop of `extended_attributes`, on what is left of the value from the
current position on. -/
def attributesLoop (rest : Bytes) : List (Bytes × Bytes) :=
  if rest.length < 4 then []                                                          -- 39-42
  else
    let next := u32 rest 0                                                            -- 44
    let block := if next > 0 then slice rest 0 next else rest                         -- 45-48
    if block.length < 9 then []                                                       -- 50
    else
      let nameLength := u8 block 6                                                    -- 53
      if nameLength = 0 then []                                                       -- 54
      else
        let valueLength := u16 block 4                                                -- 57
        let name := slice block 7 (7 + nameLength)                                    -- 59
        let value := slice block (7 + nameLength) (7 + nameLength + valueLength)      -- 60
        if next > 0 then (name, value) :: attributesLoop (rest.drop next)             -- 62-65
        else [(name, value)]                                                          -- 67
termination_by rest.length
decreasing_by rw [List.length_drop]; omega

/-- dfir_ntfs/WSL.py:35-67 `LXXATTR.extended_attributes`. -/
def extendedAttributes (value : Bytes) : List (Bytes × Bytes) := attributesLoop (value.drop 4)

/-- dfir_ntfs/WSL.py:72-75, 77-88 `LXATTRB.__init__` and `validate_header`. -/
def lxattrb (value : Bytes) : Except Exc Bytes :=
  if value.length ≠ 56 then .error .ValueError                                        -- 80
  else if u16 value 2 ≠ 1 ∨ u16 value 0 ≠ 0 then .error .ValueError                   -- 83-86
  else .ok value

/-- dfir_ntfs/WSL.py:90-93 `get_mode`. -/
def mode (value : Bytes) : Except Exc Nat := unpackLE 4 (slice value 4 8)
/-- dfir_ntfs/WSL.py:95-98 `get_uid`. -/
def uid (value : Bytes) : Except Exc Nat := unpackLE 4 (slice value 8 12)
/-- dfir_ntfs/WSL.py:100-103 `get_gid`. -/
def gid (value : Bytes) : Except Exc Nat := unpackLE 4 (slice value 12 16)
/-- dfir_ntfs/WSL.py:105-108 `get_rdev`. -/
def rdev (value : Bytes) : Except Exc Nat := unpackLE 4 (slice value 16 20)

/-- Seconds from 1970-01-01 to 10000-01-01: 2932897 days. -/
def secondsFrom1970 : Nat := 2932897 * 86400

/-- dfir_ntfs/WSL.py:9-12 `DecodeUnixtime`: microseconds since 1970-01-01.  The date of the seconds must
be representable (OverflowError otherwise; no date in `timedelta`'s larger range is representable
either), then that of the sum.  `ns / 1000` is a double and is rounded to the nearest integer, ties to
even; a quotient of a 32-bit number by 1000 is either a tie, which is exact in a double, or at least
1/1000 away from one, so the double does not change the result. -/
def decodeUnixtime (s ns : Nat) : Except Exc Nat :=
  if s ≥ secondsFrom1970 then .error .OverflowError
  else if s * 1000000 + Attributes.roundHalfEven ns 1000 ≥ secondsFrom1970 * 1000000 then .error .OverflowError
  else .ok (s * 1000000 + Attributes.roundHalfEven ns 1000)

/-- dfir_ntfs/WSL.py:110-132: The part shared by `get_atime`, `get_mtime` and `get_chtime`. -/
def timeAt (value : Bytes) (nsAt sAt : Nat) : Except Exc Nat :=
  match unpackLE 4 (slice value nsAt (nsAt + 4)) with
  | .error e => .error e
  | .ok ns =>
    match unpackLE 8 (slice value sAt (sAt + 8)) with
    | .error e => .error e
    | .ok s => decodeUnixtime s ns

/-- dfir_ntfs/WSL.py:110-116 `get_atime`, 118-124 `get_mtime`, 126-132 `get_chtime`. -/
def atime (value : Bytes) : Except Exc Nat := timeAt value 20 32
/-- dfir_ntfs/WSL.py:118-124 `get_mtime`. -/
def mtime (value : Bytes) : Except Exc Nat := timeAt value 24 40
/-- dfir_ntfs/WSL.py:126-132 `get_chtime`. -/
def chtime (value : Bytes) : Except Exc Nat := timeAt value 28 48

end Verif.WSL
