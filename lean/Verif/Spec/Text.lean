/-
Specification of texts, independent of how the command line programs make them: the calendar, what a
printed timestamp denotes, the layout of a hexadecimal dump, how to read a CSV file, and UTF-8.
-/
import Verif.Basic.Utf16
namespace Verif.Spec.Text

/-! ### The Gregorian calendar -/

/-- A leap year. -/
def leap (y : Nat) : Prop := y % 4 = 0 ∧ (y % 100 ≠ 0 ∨ y % 400 = 0)

instance (y : Nat) : Decidable (leap y) := by unfold leap; infer_instance

/-- The number of days of a year. -/
def yearLength (y : Nat) : Nat := if leap y then 366 else 365

/-- The number of days of a month (1 is January). -/
def monthLength (y m : Nat) : Nat :=
  if m = 2 then (if leap y then 29 else 28) else if m = 4 ∨ m = 6 ∨ m = 9 ∨ m = 11 then 30 else 31

/-- The number of days from 0001-01-01 to the first day of a year. -/
def daysToYear : Nat → Nat
  | 0 => 0
  | 1 => 0
  | y + 2 => daysToYear (y + 1) + yearLength (y + 1)

/-- The number of days from the first day of a year to the first day of a month. -/
def daysToMonth (y : Nat) : Nat → Nat
  | 0 => 0
  | 1 => 0
  | m + 2 => daysToMonth y (m + 1) + monthLength y (m + 1)

/-- A day of the calendar. -/
def validDay (y m d : Nat) : Prop := 1 ≤ y ∧ 1 ≤ m ∧ m ≤ 12 ∧ 1 ≤ d ∧ d ≤ monthLength y m

/-- The number of days from 0001-01-01 to a day. -/
def dayNumber (y m d : Nat) : Nat := daysToYear y + daysToMonth y m + (d - 1)

/-! ### Timestamps as text -/

/-- The number that a text of decimal digits denotes; `none` when a character is not a digit. -/
def decimalValue (s : Str) : Option Nat :=
  s.foldl (fun acc c => acc.bind fun n => if 0x30 ≤ c ∧ c ≤ 0x39 then some (10 * n + (c - 0x30)) else none) (some 0)

/-- `text` is `YYYY-MM-DD hh:mm:ss.ffffff`, a day of the calendar and a time of the day, and `t` is the
number of microseconds from 0001-01-01 00:00:00 to that moment. -/
def Denotes (text : Str) (t : Nat) : Prop :=
  ∃ Y M D h m s f : Str, ∃ y mo d hh mi ss us : Nat,
    text = Y ++ [0x2D] ++ M ++ [0x2D] ++ D ++ [0x20] ++ h ++ [0x3A] ++ m ++ [0x3A] ++ s ++ [0x2E] ++ f ∧
    Y.length = 4 ∧ M.length = 2 ∧ D.length = 2 ∧ h.length = 2 ∧ m.length = 2 ∧ s.length = 2 ∧ f.length = 6 ∧
    decimalValue Y = some y ∧ decimalValue M = some mo ∧ decimalValue D = some d ∧ decimalValue h = some hh ∧
    decimalValue m = some mi ∧ decimalValue s = some ss ∧ decimalValue f = some us ∧
    validDay y mo d ∧ hh < 24 ∧ mi < 60 ∧ ss < 60 ∧ us < 1000000 ∧
    t = ((((dayNumber y mo d * 24) + hh) * 60 + mi) * 60 + ss) * 1000000 + us

/-- The order of texts, character by character (how a spreadsheet or `sort` orders timestamps). -/
def Before : Str → Str → Prop
  | [], [] => False
  | [], _ :: _ => True
  | _ :: _, [] => False
  | a :: s, b :: t => a < b ∨ (a = b ∧ Before s t)

/-! ### Hexadecimal dumps -/

/-- An upper-case hexadecimal digit. -/
def hexChar (d : Nat) : Nat := if d < 10 then 0x30 + d else 0x37 + d

/-- The number that a text of upper-case hexadecimal digits denotes. -/
def hexValue (s : Str) : Option Nat :=
  s.foldl (fun acc c => acc.bind fun n =>
    if 0x30 ≤ c ∧ c ≤ 0x39 then some (16 * n + (c - 0x30))
    else if 0x41 ≤ c ∧ c ≤ 0x46 then some (16 * n + (c - 0x37)) else none) (some 0)

/-- The character in column `p` of the hexadecimal part of a line: bytes take two columns each, one column
is between bytes; there is a hyphen between the two halves of a line. -/
def dumpColumn (line : Bytes) (p : Nat) : Nat :=
  match line[p / 3]? with
  | none => 0x20
  | some b =>
    if p % 3 = 0 then hexChar (b.toNat / 16)
    else if p % 3 = 1 then hexChar (b.toNat % 16)
    else if p / 3 = 7 ∧ 8 < line.length then 0x2D else 0x20

/-- The printable ASCII characters stand for themselves, a dot stands for every other byte. -/
def dumpChar (b : UInt8) : Nat := if 0x20 ≤ b.toNat ∧ b.toNat < 0x7F then b.toNat else 0x2E

/-- `text` is line number `j` of the dump of `b`: the address, 47 columns for the bytes, the characters. -/
def IsDumpLine (b : Bytes) (j : Nat) (text : Str) : Prop :=
  ∃ address : Str, 8 ≤ address.length ∧ (8 < address.length → address.head? ≠ some 0x30) ∧ hexValue address = some (16 * j) ∧
    text = address ++ [0x20, 0x20] ++ (List.range 47).map (dumpColumn (slice b (16 * j) (16 * j + 16))) ++
      [0x20, 0x20] ++ (slice b (16 * j) (16 * j + 16)).map dumpChar

/-! ### CSV -/

/-- Where a reader of a CSV file is. -/
inductive CsvState where
  /-- at the start of a field -/
  | start
  /-- in a field without quotation marks -/
  | plain
  /-- between quotation marks -/
  | quoted
  /-- after a quotation mark in a quoted field -/
  | quote
  /-- after a carriage return outside of quotation marks -/
  | cr
  deriving DecidableEq, Repr

/-- Read a CSV file (RFC 4180): fields are separated by commas and rows end with CR LF; in a field between
quotation marks, two quotation marks stand for one and the other characters for themselves.  `field` and
`row` are what was read of the current field and of the current row. -/
def readCsv : Str → CsvState → Str → List Str → Option (List (List Str))
  | [], .start, [], [] => some []
  | [], _, _, _ => none
  | c :: rest, .quoted, field, row =>
    if c = 0x22 then readCsv rest .quote field row else readCsv rest .quoted (field ++ [c]) row
  | c :: rest, .cr, field, row =>
    if c = 0x0A then (readCsv rest .start [] []).map fun rows => (row ++ [field]) :: rows else none
  | c :: rest, .start, field, row =>
    if c = 0x22 then readCsv rest .quoted field row
    else if c = 0x2C then readCsv rest .start [] (row ++ [field])
    else if c = 0x0D then readCsv rest .cr field row
    else if c = 0x0A then none
    else readCsv rest .plain (field ++ [c]) row
  | c :: rest, .plain, field, row =>
    if c = 0x22 then none
    else if c = 0x2C then readCsv rest .start [] (row ++ [field])
    else if c = 0x0D then readCsv rest .cr field row
    else if c = 0x0A then none
    else readCsv rest .plain (field ++ [c]) row
  | c :: rest, .quote, field, row =>
    if c = 0x22 then readCsv rest .quoted (field ++ [0x22]) row
    else if c = 0x2C then readCsv rest .start [] (row ++ [field])
    else if c = 0x0D then readCsv rest .cr field row
    else none

/-- The rows of a CSV file. -/
def csvRows (text : Str) : Option (List (List Str)) := readCsv text .start [] []

/-! ### UTF-8 -/

/-- A byte `10xxxxxx`. -/
def continuation (b : UInt8) : Option Nat := if 0x80 ≤ b.toNat ∧ b.toNat < 0xC0 then some (b.toNat - 0x80) else none

/-- Decode UTF-8 (RFC 3629); `none` when the bytes are not UTF-8. -/
def utf8Decode : Bytes → Option Str
  | [] => some []
  | a :: rest =>
    if a.toNat < 0x80 then (utf8Decode rest).map (a.toNat :: ·)
    else if a.toNat < 0xC0 then none
    else if a.toNat < 0xE0 then
      match rest with
      | b :: rest => do
        let c := (a.toNat - 0xC0) * 64 + (← continuation b)
        if c < 0x80 then none else (utf8Decode rest).map (c :: ·)
      | _ => none
    else if a.toNat < 0xF0 then
      match rest with
      | b :: b' :: rest => do
        let c := ((a.toNat - 0xE0) * 64 + (← continuation b)) * 64 + (← continuation b')
        if c < 0x800 ∨ (0xD800 ≤ c ∧ c < 0xE000) then none else (utf8Decode rest).map (c :: ·)
      | _ => none
    else if a.toNat < 0xF8 then
      match rest with
      | b :: b' :: b'' :: rest => do
        let c := (((a.toNat - 0xF0) * 64 + (← continuation b)) * 64 + (← continuation b')) * 64 + (← continuation b'')
        if c < 0x10000 ∨ 0x110000 ≤ c then none else (utf8Decode rest).map (c :: ·)
      | _ => none
    else none

/-- A Unicode scalar value: what a text file can hold. -/
def scalar (c : Nat) : Prop := c < 0x110000 ∧ ¬ (0xD800 ≤ c ∧ c < 0xE000)

end Verif.Spec.Text
