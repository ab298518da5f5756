/-
Python's `bytes.decode('utf-16le', errors = 'replace')`.
-/
import Verif.Basic.Bytes
namespace Verif

/-- A Python string: its code points. -/
abbrev Str := List Nat

/-- The result of CPython's UTF-16LE decoder with the error handler `replace`: a high surrogate
followed by a low surrogate gives one code point; a lone surrogate, a high surrogate at the end of
the input (together with whatever follows it) and a trailing odd byte give U+FFFD. -/
def utf16Decode : Bytes → Str
  | [] => []
  | [_] => [0xFFFD]
  | a :: b :: rest =>
    if 0xD800 ≤ a.toNat + 256 * b.toNat ∧ a.toNat + 256 * b.toNat < 0xDC00 then
      match rest with
      | [] => [0xFFFD]
      | [_] => [0xFFFD]
      | c :: d :: rest' =>
        if 0xDC00 ≤ c.toNat + 256 * d.toNat ∧ c.toNat + 256 * d.toNat < 0xE000 then
          (0x10000 + (a.toNat + 256 * b.toNat - 0xD800) * 0x400 + (c.toNat + 256 * d.toNat - 0xDC00)) :: utf16Decode rest'
        else 0xFFFD :: utf16Decode (c :: d :: rest')
    else if 0xDC00 ≤ a.toNat + 256 * b.toNat ∧ a.toNat + 256 * b.toNat < 0xE000 then 0xFFFD :: utf16Decode rest
    else (a.toNat + 256 * b.toNat) :: utf16Decode rest

/-- Python's `bytes.decode('utf-16le')` (error handler `strict`): `none` stands for
`UnicodeDecodeError`, raised for a lone surrogate and for truncated data. -/
def utf16DecodeStrict : Bytes → Option Str
  | [] => some []
  | [_] => none
  | a :: b :: rest =>
    if 0xD800 ≤ a.toNat + 256 * b.toNat ∧ a.toNat + 256 * b.toNat < 0xDC00 then
      match rest with
      | [] => none
      | [_] => none
      | c :: d :: rest' =>
        if 0xDC00 ≤ c.toNat + 256 * d.toNat ∧ c.toNat + 256 * d.toNat < 0xE000 then
          (utf16DecodeStrict rest').map fun s =>
            (0x10000 + (a.toNat + 256 * b.toNat - 0xD800) * 0x400 + (c.toNat + 256 * d.toNat - 0xDC00)) :: s
        else none
    else if 0xDC00 ≤ a.toNat + 256 * b.toNat ∧ a.toNat + 256 * b.toNat < 0xE000 then none
    else (utf16DecodeStrict rest).map fun s => (a.toNat + 256 * b.toNat) :: s

/-- An ASCII string, for writing examples. -/
def Str.ofString (s : String) : Str := s.toList.map Char.toNat

end Verif
