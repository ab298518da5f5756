/-
What a carved file name is (used to state C21).
-/
import Verif.Spec.Parser
namespace Verif.Spec.SlackSpace
open Verif.Spec.Parser

/-- A name of 1 to 255 characters without a path separator and without a null character. -/
def PlausibleName (name : Str) : Prop := 1 ≤ name.length ∧ name.length ≤ 255 ∧ 0x2F ∉ name ∧ 0 ∉ name

/-- The `$FILE_NAME` value whose four timestamps are at `p`: it starts 8 bytes before them; when these
are not there, they are replaced with 0xFF. -/
def entryAt (value : Bytes) (p : Nat) : Bytes :=
  if 8 ≤ p then value.drop (p - 8) else List.replicate 8 0xFF ++ value.drop p

/-- There is a plausible `$FILE_NAME` value with its four timestamps at `p`: they are within the accepted
bounds (of the years 1997 and 2060), the length of the name is inside the buffer, and what is inside the buffer of the name is
plausible. -/
def Plausible (value : Bytes) (p : Nat) : Prop :=
  p + 32 ≤ value.length ∧ (8 ≤ p ∨ p = 4 ∨ p = 0) ∧
  (∀ i, i < 4 → 125 * 10 ^ 15 ≤ leNat (slice value (p + 8 * i) (p + 8 * i + 8)) ∧
    leNat (slice value (p + 8 * i) (p + 8 * i + 8)) ≤ 145 * 10 ^ 15) ∧
  65 ≤ (entryAt value p).length ∧ PlausibleName (nameOf (entryAt value p))

/-- The characters of recognizable names (ASCII without control characters other than the tabulator, and
without the slash, the colon and the backslash). -/
def recognizable (c : Nat) : Prop := (0x20 ≤ c ∧ c < 0x7F ∨ c = 0x09) ∧ c ≠ 0x2F ∧ c ≠ 0x3A ∧ c ≠ 0x5C

/-- There is a recognizable character at `q`, in two bytes. -/
def CharAt (value : Bytes) (q : Nat) : Prop := recognizable (u8 value q) ∧ u8 value (q + 1) = 0

/-- There are five recognizable characters at `b`, before `n` and a whole number of characters before it (but not at the very start of the
buffer). -/
def FiveAt (value : Bytes) (n b : Nat) : Prop := 0 < b ∧ b % 2 = n % 2 ∧ b + 10 ≤ n ∧ ∀ i, i < 5 → CharAt value (b + 2 * i)

/-- `s` is the last sequence of at least five recognizable characters before `n`, and it is at `a`: it cannot be extended in either direction,
and there is no other after it. -/
def LastName (value : Bytes) (n a : Nat) (s : Str) : Prop :=
  5 ≤ s.length ∧ 0 < a ∧ a % 2 = n % 2 ∧ a + 2 * s.length ≤ n ∧
  (∀ i, i < s.length → CharAt value (a + 2 * i) ∧ s[i]? = some (u8 value (a + 2 * i))) ∧
  (a ≤ 2 ∨ ¬ CharAt value (a - 2)) ∧ (a + 2 * s.length = n ∨ ¬ CharAt value (a + 2 * s.length)) ∧
  ∀ b, a + 2 * s.length ≤ b → ¬ FiveAt value n b

end Verif.Spec.SlackSpace
