/-
Model of the text output shared by the command line programs: timestamps, hexadecimal dumps, CSV and
UTF-8.  A `datetime` is the number of microseconds since 0001-01-01 00:00:00.  `strftime`, `csv.writer`
and the text file are Python's; they are modelled here because they stand between the parsers and what a
user reads.
-/
import Verif.Basic.Str
import Verif.Basic.Exc
namespace Verif.Scripts

/-! ### Numbers -/

/-- `str(n)` and `'{}'.format(n)` (ntfs_parser:136, 338): a decimal number. -/
def decimal (n : Nat) : Str := (Nat.toDigits 10 n).map Char.toNat

/-- `'{}'.format(n)` of a signed number (ntfs_parser:366, fat_parser:24). -/
def signedDecimal (n : Int) : Str := if n < 0 then 0x2D :: decimal n.natAbs else decimal n.natAbs

/-- The last `w` decimal digits of a number, zeros included (ntfs_parser:14: the directives of `strftime`). -/
def fixedDec : Nat → Nat → Str
  | 0, _ => []
  | w + 1, n => fixedDec w (n / 10) ++ [0x30 + n % 10]

/-- ntfs_parser:17-18: An upper-case hexadecimal digit. -/
def upperHexDigit (d : Nat) : Nat := if d < 10 then 0x30 + d else 0x41 + (d - 10)

/-- ntfs_parser:18 (`'{:X}'.format`): the upper-case hexadecimal digits of a number, the lowest first. -/
def upperHexDigits (n : Nat) : List Nat :=
  if n < 16 then [upperHexDigit n] else upperHexDigit (n % 16) :: upperHexDigits (n / 16)
termination_by n

/-- `str.zfill(w)` of a text without a sign (ntfs_parser:33), also the zeros of `'{:02X}'` (18). -/
def zfill (w : Nat) (s : Str) : Str := List.replicate (w - s.length) 0x30 ++ s

/-! ### Timestamps -/

/-- A day of the proleptic Gregorian calendar, as `datetime` has it (ntfs_parser:14). -/
structure Day where
  year : Nat
  month : Nat
  day : Nat
  deriving DecidableEq, Repr

/-- `_DAYS_BEFORE_MONTH` of Python's `datetime` (used by `strftime`, ntfs_parser:14). -/
def daysBeforeMonth : List Nat := [0, 0, 31, 59, 90, 120, 151, 181, 212, 243, 273, 304, 334]

/-- `_DAYS_IN_MONTH` of Python's `datetime` (used by `strftime`, ntfs_parser:14). -/
def daysInMonth : List Nat := [0, 31, 28, 31, 30, 31, 30, 31, 31, 30, 31, 30, 31]

/-- `_ord2ymd` of Python's `datetime` (the C code has the same algorithm), from the number of days since
0001-01-01 (used by `strftime`, ntfs_parser:14). -/
def ord2ymd (days : Nat) : Day :=
  let n := days % 146097
  let n100 := n / 36524
  let n := n % 36524
  let n4 := n / 1461
  let n := n % 1461
  let n1 := n / 365
  let n := n % 365
  let year := days / 146097 * 400 + 1 + n100 * 100 + n4 * 4 + n1
  if n1 = 4 ∨ n100 = 4 then ⟨year - 1, 12, 31⟩
  else
    let leap := decide (n1 = 3 ∧ (n4 ≠ 24 ∨ n100 = 3))
    let month := (n + 50) / 32
    let preceding := daysBeforeMonth.getD month 0 + (if month > 2 ∧ leap then 1 else 0)
    if preceding > n then
      let month := month - 1
      let preceding := preceding - (daysInMonth.getD month 0 + (if month = 2 ∧ leap then 1 else 0))
      ⟨year, month, n - preceding + 1⟩
    else ⟨year, month, n - preceding + 1⟩

/-- `strftime('%Y-%m-%d %H:%M:%S.%f')` (ntfs_parser:14).  `%Y` is four digits for the years from 1000 on;
no timestamp of the package is earlier than 1582. -/
def strftime (t : Nat) : Str :=
  let d := ord2ymd (t / 86400000000)
  fixedDec 4 d.year ++ [0x2D] ++ fixedDec 2 d.month ++ [0x2D] ++ fixedDec 2 d.day ++ [0x20] ++
    fixedDec 2 (t / 3600000000 % 24) ++ [0x3A] ++ fixedDec 2 (t / 60000000 % 60) ++ [0x3A] ++
    fixedDec 2 (t / 1000000 % 60) ++ [0x2E] ++ fixedDec 6 (t % 1000000)

/-- ntfs_parser:10-14 `format_timestamp`. -/
def formatTimestamp : Option Nat → Str
  | none => Str.ofString "N/A"
  | some t => strftime t

/-- Microseconds from 0001-01-01 to 1601-01-01, the epoch of FILETIME (dfir_ntfs/Attributes.py:157). -/
def epoch1601 : Nat := 584388 * 86400000000
/-- Microseconds from 0001-01-01 to 1582-10-15, the epoch of GUID timestamps (dfir_ntfs/Attributes.py:168). -/
def epoch1582 : Nat := 577735 * 86400000000
/-- Microseconds from 0001-01-01 to 1970-01-01, the epoch of Unix timestamps (dfir_ntfs/WSL.py:12). -/
def epoch1970 : Nat := 719162 * 86400000000

/-! ### Hexadecimal dumps -/

/-- ntfs_parser:37-52: the hexadecimal part of a line, from byte number `k` of the `len` bytes on. -/
def hexBytes (len : Nat) : Nat → Bytes → Str
  | _, [] => []
  | k, b :: rest =>
    zfill 2 (upperHexDigits b.toNat).reverse ++                                       -- 41
    (if k = 7 ∧ k ≠ len - 1 then [0x2D] else if k ≠ len - 1 then [0x20] else []) ++   -- 42-45
    hexBytes len (k + 1) rest                                                         -- 52

/-- ntfs_parser:47-50: the character for a byte. -/
def asciiChar (b : UInt8) : Nat := if b.toNat ≥ 32 ∧ b.toNat ≤ 126 then b.toNat else 0x2E

/-- ntfs_parser:30-58: one line. -/
def hexLine (i : Nat) (line : Bytes) : Str :=
  zfill 8 (zfill 2 (upperHexDigits i).reverse) ++ [0x20, 0x20] ++                     -- 32-33, 58
  (hexBytes line.length 0 line ++ List.replicate (3 * (16 - line.length)) 0x20) ++    -- 54-56
  [0x20, 0x20] ++ line.map asciiChar

/-- ntfs_parser:28-63: the loop over the lines, from byte number `i` on; `rest` is what is left of the buffer. -/
def hexLines (i : Nat) (rest : Bytes) : Str :=
  if rest.length = 0 then []
  else hexLine i (rest.take 16) ++ (if 16 < rest.length then 0x0A :: hexLines (i + 16) (rest.drop 16) else [])
termination_by rest.length
decreasing_by rw [List.length_drop]; omega

/-- ntfs_parser:16-65 `hexdump`. -/
def hexdump (buf : Bytes) : Str := if buf.length = 0 then [0x2D] else hexLines 0 buf

/-! ### CSV -/

/-- ntfs_parser:67-74 `format_source`. -/
def formatSource (source : Str) (tag : Option Str) : Str :=
  if source.length = 0 then []                                                        -- 68
  else
    match tag with
    | none => source                                                                  -- 71
    | some t => if t.length = 0 then source else source ++ Str.ofString " (" ++ t ++ Str.ofString ")"

/-- A field given to `writerow` (ntfs_parser:195 and others): `None`, an integer, or a string (which is
also how other values are written: as their `str`). -/
inductive Cell where
  | none
  | int (n : Int)
  | str (s : Str)
  deriving DecidableEq, Repr

/-- The text of a field (`csv.writer`, ntfs_parser:195 and others). -/
def Cell.text : Cell → Str
  | .none => []
  | .int n => signedDecimal n
  | .str s => s

/-- One `writerow` (ntfs_parser:195 and others). -/
abbrev Row := List Cell

/-- The characters that make `csv.writer` put a field in quotes, with `dialect = 'excel'`: the comma, the
quotation mark, and the characters of the line end.  (Before Python 3.11 also the null character; a reader
sees no difference.)  ntfs_parser:977, fat_parser:72. -/
def needsQuotes (c : Nat) : Bool := c == 0x2C || c == 0x22 || c == 0x0D || c == 0x0A

/-- A field as `csv.writer` writes it (ntfs_parser:977, fat_parser:72); `alone` is true for the only field
of a row. -/
def csvField (alone : Bool) (s : Str) : Str :=
  if s.any needsQuotes ∨ (alone = true ∧ s = []) then
    0x22 :: (s.flatMap fun c => if c = 0x22 then [0x22, 0x22] else [c]) ++ [0x22]
  else s

/-- `csv.writer(…, dialect = 'excel').writerow(row)` (ntfs_parser:977, fat_parser:72). -/
def csvRow (row : List Str) : Str :=
  pyJoin [0x2C] (row.map (csvField (decide (row.length = 1)))) ++ [0x0D, 0x0A]

/-! ### UTF-8 -/

/-- A character in UTF-8; the strict codec raises UnicodeEncodeError for a surrogate (ntfs_parser:976:
`open(…, encoding = 'utf-8')`). -/
def utf8Char (c : Nat) : Option Bytes :=
  if c < 0x80 then some [UInt8.ofNat c]
  else if c < 0x800 then some [UInt8.ofNat (0xC0 + c / 64), UInt8.ofNat (0x80 + c % 64)]
  else if 0xD800 ≤ c ∧ c < 0xE000 then none
  else if c < 0x10000 then
    some [UInt8.ofNat (0xE0 + c / 4096), UInt8.ofNat (0x80 + c / 64 % 64), UInt8.ofNat (0x80 + c % 64)]
  else if c < 0x110000 then
    some [UInt8.ofNat (0xF0 + c / 262144), UInt8.ofNat (0x80 + c / 4096 % 64), UInt8.ofNat (0x80 + c / 64 % 64),
      UInt8.ofNat (0x80 + c % 64)]
  else none

/-- `str.encode('utf-8')` (ntfs_parser:976); `none` is UnicodeEncodeError. -/
def utf8 : Str → Option Bytes
  | [] => some []
  | c :: rest =>
    match utf8Char c with
    | none => none
    | some b =>
      match utf8 rest with
      | none => none
      | some bs => some (b ++ bs)

/-- The bytes of the CSV file after some rows (ntfs_parser:976-979: opened with `newline = ''`). -/
def csvFile (rows : List Row) : Option Bytes := utf8 (rows.flatMap fun r => csvRow (r.map Cell.text))

end Verif.Scripts
