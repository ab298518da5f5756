/-
The report on a MoveTable (used to state C100).
-/
import Verif.Spec.Text
import Verif.Model.Attributes
namespace Verif.Spec.MoveReport
open Verif.Spec.Text

/-- `w` lower-case hexadecimal digits of a number, the highest first. -/
def digits (w n : Nat) : Str :=
  (List.range w).map fun i => let d := n / 16 ^ (w - 1 - i) % 16; if d < 10 then 0x30 + d else 0x57 + d

/-- The number stored in some bytes, the highest first. -/
def bigNat (b : Bytes) : Nat := leNat b.reverse

/-- A GUID as text: three little-endian numbers (of four, two and two bytes), then two big-endian ones (of two and six bytes). -/
def guid (b : Bytes) : Str :=
  digits 8 (leNat (slice b 0 4)) ++ [0x2D] ++ digits 4 (leNat (slice b 4 6)) ++ [0x2D] ++ digits 4 (leNat (slice b 6 8)) ++ [0x2D] ++
    digits 4 (bigNat (slice b 8 10)) ++ [0x2D] ++ digits 12 (bigNat (slice b 10 16))

/-- The time in a GUID of version 1 with the usual variant, in units of 100 ns since 1582-10-15; other GUIDs have none. -/
def guidUnits (b : Bytes) : Option Nat :=
  if leNat (slice b 6 8) / 4096 = 1 ∧ leNat (slice b 8 9) / 64 = 2 then
    some (leNat (slice b 0 4) + 2 ^ 32 * leNat (slice b 4 6) + 2 ^ 48 * (leNat (slice b 6 8) % 4096))
  else none

/-- The text for a moment (microseconds since 0001-01-01), or for none. -/
def TimeText (s : Str) : Option Nat → Prop
  | none => s = Str.ofString "N/A"
  | some t => Denotes s t

/-- The moment of a GUID timestamp. -/
def guidMoment (b : Bytes) : Option Nat :=
  ((guidUnits b).bind Attributes.decodeGuidTime).map (dayNumber 1582 10 15 * 86400000000 + ·)

/-- The moment of a FILETIME. -/
def filetimeMoment (n : Nat) : Option Nat := (Attributes.decodeFiletime n).map (dayNumber 1601 1 1 * 86400000000 + ·)

/-- A byte in the code page 866 (as the Unicode consortium lists it). -/
def cp866 (n : Nat) : Nat :=
  if n < 0x80 then n
  else if n < 0xB0 then 0x410 + (n - 0x80)
  else if 0xE0 ≤ n ∧ n < 0xF0 then 0x440 + (n - 0xE0)
  else if n < 0xE0 then
    [0x2591, 0x2592, 0x2593, 0x2502, 0x2524, 0x2561, 0x2562, 0x2556, 0x2555, 0x2563, 0x2551, 0x2557, 0x255D, 0x255C, 0x255B, 0x2510,
     0x2514, 0x2534, 0x252C, 0x251C, 0x2500, 0x253C, 0x255E, 0x255F, 0x255A, 0x2554, 0x2569, 0x2566, 0x2560, 0x2550, 0x256C, 0x2567,
     0x2568, 0x2564, 0x2565, 0x2559, 0x2558, 0x2552, 0x2553, 0x256B, 0x256A, 0x2518, 0x250C, 0x2588, 0x2584, 0x258C, 0x2590, 0x2580].getD (n - 0xB0) 0
  else [0x401, 0x451, 0x404, 0x454, 0x407, 0x457, 0x40E, 0x45E, 0xB0, 0x2219, 0xB7, 0x221A, 0x2116, 0xA4, 0x25A0, 0xA0].getD (n - 0xF0) 0

/-- A byte in Windows-1252; the bytes 81, 8D, 8F, 90 and 9D stand for nothing. -/
def windows1252 (n : Nat) : Option Nat :=
  if n < 0x80 ∨ 0xA0 ≤ n then some n
  else if n = 0x81 ∨ n = 0x8D ∨ n = 0x8F ∨ n = 0x90 ∨ n = 0x9D then none
  else [0x20AC, 0, 0x201A, 0x192, 0x201E, 0x2026, 0x2020, 0x2021, 0x2C6, 0x2030, 0x160, 0x2039, 0x152, 0, 0x17D, 0,
    0, 0x2018, 0x2019, 0x201C, 0x201D, 0x2022, 0x2013, 0x2014, 0x2DC, 0x2122, 0x161, 0x203A, 0x153, 0, 0x17E, 0x178][n - 0x80]?

/-- The text for a name in an unknown code page: the name itself when both code pages agree; the name in the first one when it has no
meaning in the second one; otherwise, both. -/
def NameText (s : Str) (b : Bytes) : Prop :=
  let first := b.map fun x => cp866 x.toNat
  (s = first ∧ ∃ x ∈ b, windows1252 x.toNat = none) ∨
  ∃ second : Str, b.map (fun x => windows1252 x.toNat) = second.map some ∧
    ((first = second ∧ s = first) ∨
     (first ≠ second ∧ s = Str.ofString "\"" ++ first ++ Str.ofString "\" (cp-866), \"" ++ second ++ Str.ofString "\" (windows-1252)"))

/-- What is before the first zero byte. -/
def UpToZero (field name : Bytes) : Prop := name <+: field ∧ 0 ∉ name ∧ (name = field ∨ ∃ rest, field = name ++ 0 :: rest)

/-- The section for the header of a table. -/
def IsHeaderSection (header : Bytes) (s : Str) : Prop :=
  ∃ name nameText, UpToZero (slice header 40 56) name ∧ NameText nameText name ∧
    s = Str.ofString "File header:\n * Machine ID: " ++ nameText ++ Str.ofString "\n * Volume object ID: " ++ guid (slice header 56 72) ++
      Str.ofString "\n\n---\n\n"

/-- The section for an entry of a table. -/
def IsEntrySection (entry : Bytes) (s : Str) : Prop :=
  ∃ name nameText t1 t2 t3 low high, UpToZero (slice entry 68 84) name ∧ NameText nameText name ∧
    TimeText t1 (guidMoment (slice entry 20 36)) ∧ TimeText t2 (guidMoment (slice entry 52 68)) ∧ TimeText t3 (guidMoment (slice entry 100 116)) ∧
    TimeText low (filetimeMoment (2 ^ 32 * leNat (slice entry 116 120))) ∧
    TimeText high (filetimeMoment (2 ^ 32 * leNat (slice entry 116 120) + (2 ^ 32 - 1))) ∧
    s = Str.ofString "Object ID: " ++ guid (slice entry 20 36) ++
      Str.ofString "\n\nDomain-relative object ID, volume: " ++ guid (slice entry 36 52) ++
      Str.ofString "\nDomain-relative object ID, file: " ++ guid (slice entry 52 68) ++
      Str.ofString "\n\nMachine ID: " ++ nameText ++
      Str.ofString "\n\nBirth domain-relative object ID, volume: " ++ guid (slice entry 84 100) ++
      Str.ofString "\nBirth domain-relative object ID, file: " ++ guid (slice entry 100 116) ++
      Str.ofString "\n\nGUID timestamps:\n * Object ID: " ++ t1 ++
      Str.ofString "\n * Domain-relative object ID, file: " ++ t2 ++
      Str.ofString "\n * Birth domain-relative object ID, file: " ++ t3 ++
      Str.ofString "\n\nTimestamp (range): " ++ low ++ Str.ofString " - " ++ high ++ Str.ofString "\n\n---\n\n"

/-- Two headers show the same: the name of the machine and the object ID of the volume. -/
structure SameHeader (a b : Bytes) : Prop where
  machine : ∀ name, UpToZero (slice a 40 56) name ↔ UpToZero (slice b 40 56) name
  volume : slice a 56 72 = slice b 56 72

/-- Two entries show the same: all the IDs, the name of the machine and the range of time. -/
structure SameMove (a b : Bytes) : Prop where
  object : slice a 20 36 = slice b 20 36
  volume : slice a 36 52 = slice b 36 52
  file : slice a 52 68 = slice b 52 68
  machine : ∀ name, UpToZero (slice a 68 84) name ↔ UpToZero (slice b 68 84) name
  birthVolume : slice a 84 100 = slice b 84 100
  birthFile : slice a 100 116 = slice b 100 116
  low : filetimeMoment (2 ^ 32 * leNat (slice a 116 120)) = filetimeMoment (2 ^ 32 * leNat (slice b 116 120))
  high : filetimeMoment (2 ^ 32 * leNat (slice a 116 120) + (2 ^ 32 - 1)) = filetimeMoment (2 ^ 32 * leNat (slice b 116 120) + (2 ^ 32 - 1))

end Verif.Spec.MoveReport
