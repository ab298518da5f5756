/-
Specification for C116: the encoding of a text in UTF-16, little endian (RFC 2781).
-/
import Verif.Basic.Bytes
import Verif.Basic.Utf16
import Verif.Spec.Text
namespace Verif.Spec.Utf16
open Verif.Spec.Text

/-- The units of one character: itself, or a pair of surrogates. -/
def units (c : Nat) : List Nat :=
  if c < 0x10000 then [c] else [0xD800 + (c - 0x10000) / 0x400, 0xDC00 + (c - 0x10000) % 0x400]

/-- The bytes of a text. -/
def encode : Str → Bytes
  | [] => []
  | c :: s => (units c).flatMap (natLE 2) ++ encode s

/-- A text that can be encoded. -/
def Valid (s : Str) : Prop := ∀ c ∈ s, scalar c

/-- The character shown in place of something that cannot be decoded. -/
def replacement : Nat := 0xFFFD

end Verif.Spec.Utf16
