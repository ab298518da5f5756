/-
What is printed about an attribute (used to state C128): the lines, from the bytes of its value.
-/
import Verif.Spec.LogReport
import Verif.Spec.MemTable
import Verif.Spec.MoveReport
namespace Verif.Spec.Printed
open Verif.Spec.Text Verif.Spec.LogReport

/-! ### Texts -/

/-- A number in hexadecimal. -/
def hexDigits (n : Nat) : Str :=
  if n < 16 then [if n < 10 then 0x30 + n else 0x57 + n] else hexDigits (n / 16) ++ [if n % 16 < 10 then 0x30 + n % 16 else 0x57 + n % 16]

def hex (n : Nat) : Str := line "0x" (hexDigits n)

/-- Two or three texts, with commas between them. -/
def two (a b : Str) : Str := a ++ Str.ofString ", " ++ b
def three (a b c : Str) : Str := two a (two b c)

/-- The text for a moment (in microseconds since 0001-01-01), or for none. -/
def IsMoment (s : Str) : Option Nat → Prop
  | none => s = Str.ofString "None"
  | some t => MemTable.IsText s t

/-- The moment of the FILETIME at `i` (what it is decoded to is the subject of C26). -/
def filetime (v : Bytes) (i : Nat) : Option Nat := MoveReport.filetimeMoment (field v i 8)

/-- The number in the `n` bytes at `i`, if they are there. -/
def ifThere (v : Bytes) (i n : Nat) : Str := if i + n ≤ v.length then digits (field v i n) else Str.ofString "None"

def yes (p : Prop) [Decidable p] : Str := Str.ofString (if p then "True" else "False")

/-! ### Attributes -/

/-- `$STANDARD_INFORMATION`, 48 bytes and, on newer volumes, 24 more. -/
def IsStandardInformation (v : Bytes) (lines : List Str) : Prop :=
  ∃ created modified accessed changed, IsMoment created (filetime v 0) ∧ IsMoment modified (filetime v 8) ∧ IsMoment accessed (filetime v 24) ∧
    IsMoment changed (filetime v 16) ∧ lines =
    [Str.ofString "$STANDARD_INFORMATION:",
     line " File created: " created,
     line " File modified: " modified,
     line " File last accessed: " accessed,
     line " $MFT entry modified: " changed,
     line " File attributes: " (hex (field v 32 4)),
     line " Current version, maximum versions: " (two (digits (field v 40 4)) (digits (field v 36 4))),
     line " Is case sensitive: " (yes (field v 40 4 % 2 = 1)),
     line " Storage reserve ID: " (digits (field v 40 4 / 256 % 16)),
     line " Known folder tag: " (digits (field v 40 4 / 2 % 8)),
     line " Class ID, owner ID, security ID: " (three (digits (field v 44 4)) (ifThere v 48 4) (ifThere v 52 4)),
     line " Quota charged: " (ifThere v 56 8),
     line " Update sequence number: " (ifThere v 64 8)]

/-- The number with a sign in the 8 bytes at `i`. -/
def signedField (v : Bytes) (i : Nat) : Int := if field v i 8 < 2 ^ 63 then field v i 8 else (field v i 8 : Int) - 2 ^ 64

/-- `$FILE_NAME`, 66 bytes and the name. -/
def IsFileName (v : Bytes) (lines : List Str) : Prop :=
  ∃ created modified accessed changed, IsMoment created (filetime v 8) ∧ IsMoment modified (filetime v 16) ∧ IsMoment accessed (filetime v 32) ∧
    IsMoment changed (filetime v 24) ∧ lines =
    [Str.ofString "$FILE_NAME:",
     line " Parent directory: " (digits (field v 0 8)),
     line " File created: " created,
     line " File modified: " modified,
     line " File last accessed: " accessed,
     line " $MFT entry modified: " changed,
     line " Allocated length, file size: " (two (signed (signedField v 40)) (signed (signedField v 48))),
     line " File attributes: " (hex (field v 56 4)),
     line " Packed EA size, unpacked EA size difference: " (two (digits (field v 60 2)) (digits (field v 62 2))),
     line " Flags: " (hex (field v 65 1)),
     line " File name (decoded): " (utf16Decode (slice v 66 (66 + 2 * field v 64 1)))]

/-- `$OBJECT_ID`: a GUID and perhaps more. -/
def IsObjectID (v : Bytes) (lines : List Str) : Prop :=
  ∃ time, IsMoment time (if 16 ≤ v.length then MoveReport.guidMoment (v.take 16) else none) ∧ lines =
    [Str.ofString "$OBJECT_ID:",
     line " GUID: " (if 16 ≤ v.length then MoveReport.guid (v.take 16) else Str.ofString "None"),
     line " GUID timestamp: " time] ++ (if 16 < v.length then [Str.ofString " Extra data is set"] else [])

/-- `$VOLUME_INFORMATION`, 12 bytes. -/
def volumeInformation (v : Bytes) : List Str :=
  [Str.ofString "$VOLUME_INFORMATION:",
   line " Version: " (digits (field v 8 1) ++ Str.ofString "." ++ digits (field v 9 1)),
   line " Flags: " (hex (field v 10 2))]

/-- `$REPARSE_POINT`, 6 bytes and the data. -/
def reparsePoint (v : Bytes) : List Str :=
  [Str.ofString "$REPARSE_POINT:",
   line " Reparse tag: " (hex (field v 0 4) ++ Str.ofString " (is Microsoft: " ++ yes (2 ^ 31 ≤ field v 0 4) ++ Str.ofString ")"),
   line " Reparse data length: " (digits (field v 4 2))]

/-- `$EA_INFORMATION`, 8 bytes. -/
def eaInformation (v : Bytes) : List Str :=
  [Str.ofString "$EA_INFORMATION:",
   line " Packed EA size: " (digits (field v 0 2)),
   line " Need EA count: " (digits (field v 2 2)),
   line " Unpacked EA size: " (digits (field v 4 4))]

/-- An attribute of which only the number of bytes (or bits) is printed. -/
def sized (title label : String) (n : Nat) : List Str := [Str.ofString title, line label (digits n)]

/-- Some lines about the `i`-th thing of a list. -/
def numbered {α : Type} (about : Nat → α → List Str) (i : Nat) : List α → List Str
  | [] => []
  | x :: rest => about i x ++ numbered about (i + 1) rest

/-- The two lines about an entry of an attribute list: the type code and the name, the instance, the lowest VCN and the file record segment. -/
def listEntry (i : Nat) (e : Attributes.AttributeListEntry) : List Str :=
  [line " Attribute #" (digits i ++ Str.ofString " type code: " ++ two (hex e.typeCode)
     (match e.name with | some name => line "name: " name | none => Str.ofString "no name")),
   line " Attribute #" (digits i ++ Str.ofString " instance: " ++ three (digits e.instanceNumber) (line "lowest VCN: " (digits e.lowestVcn))
     (line "segment reference: " (digits e.segmentReference)))]

/-- `$ATTRIBUTE_LIST`: its entries, and a size (the bytes 28 to 31), if the mark `DC` is before it. -/
def attributeList (v : Bytes) (entries : List Attributes.AttributeListEntry) : List Str :=
  Str.ofString "$ATTRIBUTE_LIST:" :: numbered listEntry 1 entries ++
    [[], line "Last compacted size (in bytes): " (if slice v 26 28 = [0x44, 0x43] then digits (field v 28 4) else Str.ofString "not set")]

/-- The three lines about an extended attribute.  Its name is UTF-8, with its null character; a name that is not has a replacement character. -/
def IsEaEntry (i : Nat) (e : Attributes.ExtendedAttribute) (lines : List Str) : Prop :=
  ∃ name, (∀ s, utf8Decode e.name = some s → name = s) ∧ (utf8Decode e.name = none → 0xFFFD ∈ name) ∧ lines =
    [line " EA #" (digits i ++ Str.ofString " name: " ++ name),
     line " EA #" (digits i ++ Str.ofString " flags: " ++ hex e.flags),
     line " EA #" (digits i ++ Str.ofString " value length (bytes): " ++ digits e.value.length)]

/-- The lines about some extended attributes, numbered from `i`. -/
def IsEaEntries : Nat → List Attributes.ExtendedAttribute → List Str → Prop
  | _, [], lines => lines = []
  | i, e :: rest, lines => ∃ first others, IsEaEntry i e first ∧ IsEaEntries (i + 1) rest others ∧ lines = first ++ others

/-- `$INDEX_ROOT`, the first 29 bytes. -/
def indexRootHead (v : Bytes) : List Str :=
  [Str.ofString "$INDEX_ROOT:",
   line " Indexed attribute type code: " (hex (field v 0 4)),
   line " Collation rule: " (digits (field v 4 4)),
   line " Bytes and blocks per the index allocation buffer: " (two (digits (field v 8 4)) (digits (field v 12 4))),
   [],
   Str.ofString "Index header:",
   line " Relative offset to the first index entry: " (digits (field v 16 4)),
   line " Relative offset to the first free byte: " (digits (field v 20 4)),
   line " Bytes available: " (digits (field v 24 4)),
   line " Flags: " (hex (field v 28 1))]

/-- The lines for some `$FILE_NAME` values, one after the other. -/
def IsFileNames : List Bytes → List (List Str) → Prop
  | [], [] => True
  | v :: vs, lines :: rest => IsFileName v lines ∧ IsFileNames vs rest
  | _, _ => False

/-- The VCN of the subnode of an entry, if there is one. -/
def subnode : Option Nat → Str
  | some n => digits n
  | none => Str.ofString "-"

/-- What follows for an index of file names: the file names of the entries, then their subnodes. -/
def IsIndexNames (attributes : List (Option Bytes)) (subnodes : List (Option Nat)) (lines : List Str) : Prop :=
  ∃ blocks : List (List Str), IsFileNames (attributes.filterMap fun a => a.filter (66 < ·.length)) blocks ∧
    lines = (if blocks = [] then [] else [[], Str.ofString "File names in the index:"]) ++ blocks.flatten ++
      (if subnodes = [] then [] else
        [[], line "Subnode VCN list: " (spaced (subnodes.map subnode))])

/-- A Unix time: seconds since 1970-01-01 and nanoseconds; the text is at most half a microsecond away. -/
def IsUnixTime (text : Str) (seconds ns : Nat) : Prop :=
  ∃ us, MemTable.IsText text (dayNumber 1970 1 1 * 86400000000 + us) ∧ 2 * (us * 1000) ≤ 2 * (seconds * 1000000000 + ns) + 1000 ∧
    2 * (seconds * 1000000000 + ns) ≤ 2 * (us * 1000) + 1000

/-- The metadata of a WSL file, 56 bytes. -/
def IsWsl (v : Bytes) (lines : List Str) : Prop :=
  ∃ accessed modified changed, IsUnixTime accessed (field v 32 8) (field v 20 4) ∧ IsUnixTime modified (field v 40 8) (field v 24 4) ∧
    IsUnixTime changed (field v 48 8) (field v 28 4) ∧ lines =
    [Str.ofString "WSL metadata:",
     line " Mode: " (hex (field v 4 4)),
     line " UID/GID: " (digits (field v 8 4) ++ Str.ofString "/" ++ digits (field v 12 4)),
     line " Device ID: " (hex (field v 16 4)),
     line " File last accessed: " accessed,
     line " File modified: " modified,
     line " Inode changed: " changed]

end Verif.Spec.Printed
