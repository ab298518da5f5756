/-
The records of a change journal and the structures of a move table, by the field: how each is laid out in bytes.
-/
import Verif.Spec.Utf16
namespace Verif.Spec.JournalFields

/-! ### The change journal -/

/-- A record of version 2 (the references have 8 bytes) or of version 3 (they have 16). -/
structure Change where
  wide : Bool
  minor : Nat
  file : Nat
  parent : Nat
  usn : Nat
  time : Nat
  reason : Nat
  source : Nat
  security : Nat
  attributes : Nat
  name : Str
  padding : Bytes

def Change.refSize (c : Change) : Nat := if c.wide then 16 else 8
def Change.nameOffset (c : Change) : Nat := if c.wide then 76 else 60
def Change.length (c : Change) : Nat := c.nameOffset + (Utf16.encode c.name).length + c.padding.length

def Change.fields (c : Change) : List Bytes :=
  [natLE 4 c.length, natLE 2 (if c.wide then 3 else 2), natLE 2 c.minor, natLE c.refSize c.file, natLE c.refSize c.parent, natLE 8 c.usn, natLE 8 c.time,
   natLE 4 c.reason, natLE 4 c.source, natLE 4 c.security, natLE 4 c.attributes, natLE 2 (Utf16.encode c.name).length, natLE 2 c.nameOffset,
   Utf16.encode c.name, c.padding]

def Change.bytes (c : Change) : Bytes := c.fields.flatten

structure Change.Fits (c : Change) : Prop where
  minor : c.minor < 2 ^ 16
  file : c.file < 256 ^ c.refSize
  parent : c.parent < 256 ^ c.refSize
  usn : c.usn < 2 ^ 64
  time : c.time < 2 ^ 64
  reason : c.reason < 2 ^ 32
  source : c.source < 2 ^ 32
  security : c.security < 2 ^ 32
  attributes : c.attributes < 2 ^ 32
  name : Utf16.Valid c.name
  nameLength : (Utf16.encode c.name).length < 2 ^ 16
  aligned : c.length % 8 = 0
  length : c.length < 2 ^ 32

/-- A record of version 4: the ranges of a file that were changed. -/
structure Ranges where
  minor : Nat
  file : Nat
  parent : Nat
  usn : Nat
  reason : Nat
  source : Nat
  remaining : Nat
  extents : List (Int × Int)
  padding : Bytes

def rangeBytes (e : Int × Int) : Bytes := intLE 8 e.1 ++ intLE 8 e.2

def Ranges.length (r : Ranges) : Nat := 64 + 16 * r.extents.length + r.padding.length

def Ranges.fields (r : Ranges) : List Bytes :=
  [natLE 4 r.length, natLE 2 4, natLE 2 r.minor, natLE 16 r.file, natLE 16 r.parent, natLE 8 r.usn, natLE 4 r.reason, natLE 4 r.source, natLE 4 r.remaining,
   natLE 2 r.extents.length, natLE 2 16, (r.extents.map rangeBytes).flatten, r.padding]

def Ranges.bytes (r : Ranges) : Bytes := r.fields.flatten

structure Ranges.Fits (r : Ranges) : Prop where
  minor : r.minor < 2 ^ 16
  file : r.file < 2 ^ 128
  parent : r.parent < 2 ^ 128
  usn : r.usn < 2 ^ 64
  reason : r.reason < 2 ^ 32
  source : r.source < 2 ^ 32
  remaining : r.remaining < 2 ^ 32
  count : r.extents.length < 2 ^ 16
  extents : ∀ e ∈ r.extents, (-2 ^ 63 ≤ e.1 ∧ e.1 < 2 ^ 63) ∧ -2 ^ 63 ≤ e.2 ∧ e.2 < 2 ^ 63
  some : 80 ≤ r.length
  aligned : r.length % 8 = 0
  length : r.length < 2 ^ 32

/-! ### The move table -/

/-- The header of a move table, with the rest of its sector. -/
structure Header where
  signature : Bytes
  unknown16 : Nat
  flags : Nat
  unknown24 : Nat
  lowest : Nat
  highest : Nat
  fileSize : Nat
  machine : Bytes
  volume : Bytes
  unknown32 : Nat
  timestamp40 : Nat
  timestamp48 : Nat
  flags56 : Nat
  state60 : Nat
  index64 : Nat
  index68 : Nat
  index72 : Nat
  index76 : Nat
  index80 : Nat
  index84 : Nat
  index88 : Nat
  rest : Bytes

def Header.fields (s : Header) : List Bytes :=
  [s.signature, natLE 4 s.unknown16, natLE 4 s.flags, natLE 4 s.unknown24, natLE 4 s.lowest, natLE 4 s.highest, natLE 4 s.fileSize, s.machine, s.volume, natLE 8 s.unknown32, natLE 8 s.timestamp40, natLE 8 s.timestamp48, natLE 4 s.flags56, natLE 4 s.state60, natLE 4 s.index64, natLE 4 s.index68, natLE 4 s.index72, natLE 4 s.index76, natLE 4 s.index80, natLE 4 s.index84, natLE 4 s.index88, s.rest]

def Header.bytes (s : Header) : Bytes := s.fields.flatten

structure Header.Fits (s : Header) : Prop where
  signature : s.signature.length = 16
  unknown16 : s.unknown16 < 2 ^ 32
  flags : s.flags < 2 ^ 32
  unknown24 : s.unknown24 < 2 ^ 32
  lowest : s.lowest < 2 ^ 32
  highest : s.highest < 2 ^ 32
  fileSize : s.fileSize < 2 ^ 32
  machine : s.machine.length = 16
  volume : s.volume.length = 16
  unknown32 : s.unknown32 < 2 ^ 64
  timestamp40 : s.timestamp40 < 2 ^ 64
  timestamp48 : s.timestamp48 < 2 ^ 64
  flags56 : s.flags56 < 2 ^ 32
  state60 : s.state60 < 2 ^ 32
  index64 : s.index64 < 2 ^ 32
  index68 : s.index68 < 2 ^ 32
  index72 : s.index72 < 2 ^ 32
  index76 : s.index76 < 2 ^ 32
  index80 : s.index80 < 2 ^ 32
  index84 : s.index84 < 2 ^ 32
  index88 : s.index88 < 2 ^ 32


/-- An entry of the log. -/
structure Entry where
  next : Nat
  previous : Nat
  type : Nat
  index : Nat
  unknown16 : Nat
  object : Bytes
  droidVolume : Bytes
  droidObject : Bytes
  machine : Bytes
  birthVolume : Bytes
  birthObject : Bytes
  time : Nat
  unknown120 : Nat

def Entry.fields (s : Entry) : List Bytes :=
  [natLE 4 s.next, natLE 4 s.previous, natLE 4 s.type, natLE 4 s.index, natLE 4 s.unknown16, s.object, s.droidVolume, s.droidObject, s.machine, s.birthVolume, s.birthObject, natLE 4 s.time, natLE 4 s.unknown120]

def Entry.bytes (s : Entry) : Bytes := s.fields.flatten

structure Entry.Fits (s : Entry) : Prop where
  next : s.next < 2 ^ 32
  previous : s.previous < 2 ^ 32
  type : s.type < 2 ^ 32
  index : s.index < 2 ^ 32
  unknown16 : s.unknown16 < 2 ^ 32
  object : s.object.length = 16
  droidVolume : s.droidVolume.length = 16
  droidObject : s.droidObject.length = 16
  machine : s.machine.length = 16
  birthVolume : s.birthVolume.length = 16
  birthObject : s.birthObject.length = 16
  time : s.time < 2 ^ 32
  unknown120 : s.unknown120 < 2 ^ 32


/-- What is at the end of each sector of the log. -/
structure Footer where
  lowest : Nat
  next : Nat
  unused : Bytes

def Footer.fields (s : Footer) : List Bytes :=
  [natLE 4 s.lowest, natLE 4 s.next, s.unused]

def Footer.bytes (s : Footer) : Bytes := s.fields.flatten

structure Footer.Fits (s : Footer) : Prop where
  lowest : s.lowest < 2 ^ 32
  next : s.next < 2 ^ 32
  unused : s.unused.length = 8


/-- The GUID at the beginning of a move table: 6643a7ec-effe-11d1-b2ae-00c04fb9386d. -/
def moveTableMark : Bytes := [0xEC, 0xA7, 0x43, 0x66, 0xFE, 0xEF, 0xD1, 0x11, 0xB2, 0xAE, 0x00, 0xC0, 0x4F, 0xB9, 0x38, 0x6D]

/-- A sector of the log: entries, an unused space that is too small for one, and the footer. -/
def sectorBytes (entries : List Entry) (space : Bytes) (f : Footer) : Bytes := (entries.map Entry.bytes).flatten ++ (space ++ f.bytes)

end Verif.Spec.JournalFields
