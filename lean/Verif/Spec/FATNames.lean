/-
Specifications for the names and dates of FAT directories.
-/
import Verif.Basic.Utf16
import Verif.Basic.Checksum
namespace Verif.Spec.FAT

/-- A control character, or one of the characters that have a meaning in a path or a command. -/
def Forbidden (c : UInt8) : Prop := c.toNat < 0x20 ∨ c.toNat ∈ "\"*,./:;<=>?[\\]|".toList.map Char.toNat

/-- 'a' to 'z'. -/
def Lowercase (c : UInt8) : Prop := 'a'.toNat ≤ c.toNat ∧ c.toNat ≤ 'z'.toNat

instance (c : UInt8) : Decidable (Forbidden c) := by unfold Forbidden; infer_instance
instance (c : UInt8) : Decidable (Lowercase c) := by unfold Lowercase; infer_instance

/-- The first byte of a name: not a space, and it can be one of two special values: 0x05, which stands for
0xE5, and 0x00, which marks an unused slot. -/
def ValidFirst (c : UInt8) : Prop := c ≠ 0x20 ∧ ¬ Lowercase c ∧ (¬ Forbidden c ∨ c = 0x05 ∨ c = 0x00)

/-- The 8.3 names, 11 bytes without the dot. -/
def Valid83 (name : Bytes) : Prop :=
  name = (".          ".toList.map (UInt8.ofNat ·.toNat)) ∨ name = ("..         ".toList.map (UInt8.ofNat ·.toNat)) ∨
  ∃ first rest, name = first :: rest ∧ rest.length = 10 ∧ ValidFirst first ∧ ∀ c ∈ rest, ¬ Lowercase c ∧ ¬ Forbidden c

/-- `short` is `padded` without the spaces at its end. -/
def IsTrimmed (padded short : Bytes) : Prop := (∃ k, padded = short ++ List.replicate k 0x20) ∧ short.getLast? ≠ some 0x20

/-- A name as it is shown: an underscore stands for the first byte of a deleted entry, 0x05 is 0xE5. -/
def shown : Bytes → Bytes
  | [] => []
  | first :: rest => (if first = 0x00 ∨ first = 0xE5 then 0x5F else if first = 0x05 then 0xE5 else first) :: rest

/-- Spaces added up to a length. -/
def padded (n : Nat) (b : Bytes) : Bytes := b ++ List.replicate (n - b.length) 0x20

/-- The length of a month. -/
def monthLength (year month : Nat) : Nat :=
  match month with
  | 1 | 3 | 5 | 7 | 8 | 10 | 12 => 31
  | 4 | 6 | 9 | 11 => 30
  | 2 => if (year % 4 = 0 ∧ year % 100 ≠ 0) ∨ year % 400 = 0 then 29 else 28
  | _ => 0

/-- The dates that FAT can express. -/
def ValidDate (year month day : Nat) : Prop :=
  1980 ≤ year ∧ year ≤ 2107 ∧ 1 ≤ month ∧ month ≤ 12 ∧ 1 ≤ day ∧ day ≤ monthLength year month

/-- The times that FAT can express (in steps of two seconds). -/
def ValidTime (hour minute second : Nat) : Prop := hour < 24 ∧ minute < 60 ∧ second < 60 ∧ second % 2 = 0

/-- Seven bits of year, four of month, five of day. -/
def packDate (year month day : Nat) : Nat := ((year - 1980) * 16 + month) * 32 + day

/-- Five bits of hour, six of minute, five of second pairs. -/
def packTime (hour minute second : Nat) : Nat := (hour * 64 + minute) * 32 + second / 2

end Verif.Spec.FAT
