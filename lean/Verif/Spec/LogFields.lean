/-
The structures of a log file, by the field: how each is laid out in bytes.
-/
import Verif.Spec.Utf16
namespace Verif.Spec.LogFields

/-- A restart area, with what follows its fields (the array of clients is there). -/
structure Area where
  current : Nat
  count : Nat
  free : Nat
  inUse : Nat
  flags : Nat
  sequenceBits : Nat
  length : Nat
  arrayOffset : Nat
  fileSize : Int
  lastLength : Nat
  headerLength : Nat
  dataOffset : Nat
  revision : Nat
  rest : Bytes

def Area.fields (s : Area) : List Bytes :=
  [natLE 8 s.current, natLE 2 s.count, natLE 2 s.free, natLE 2 s.inUse, natLE 2 s.flags, natLE 4 s.sequenceBits, natLE 2 s.length, natLE 2 s.arrayOffset, intLE 8 s.fileSize, natLE 4 s.lastLength, natLE 2 s.headerLength, natLE 2 s.dataOffset, natLE 4 s.revision, s.rest]

def Area.bytes (s : Area) : Bytes := s.fields.flatten

structure Area.Fits (s : Area) : Prop where
  current : s.current < 2 ^ 64
  count : s.count < 2 ^ 16
  free : s.free < 2 ^ 16
  inUse : s.inUse < 2 ^ 16
  flags : s.flags < 2 ^ 16
  sequenceBits : s.sequenceBits < 2 ^ 32
  length : s.length < 2 ^ 16
  arrayOffset : s.arrayOffset < 2 ^ 16
  fileSize : -2 ^ 63 ≤ s.fileSize ∧ s.fileSize < 2 ^ 63
  lastLength : s.lastLength < 2 ^ 32
  headerLength : s.headerLength < 2 ^ 16
  dataOffset : s.dataOffset < 2 ^ 16
  revision : s.revision < 2 ^ 32


/-- A log record page, without the protection of its sectors. -/
structure Page where
  signature : Bytes
  usaOffset : Nat
  usaCount : Nat
  last : Nat
  flags : Nat
  count : Nat
  position : Nat
  next : Nat
  unused : Bytes
  lastEnd : Nat
  gap : Bytes
  fileOffset : Nat
  rest : Bytes

def Page.fields (s : Page) : List Bytes :=
  [s.signature, natLE 2 s.usaOffset, natLE 2 s.usaCount, natLE 8 s.last, natLE 4 s.flags, natLE 2 s.count, natLE 2 s.position, natLE 2 s.next, s.unused, natLE 8 s.lastEnd, s.gap, natLE 4 s.fileOffset, s.rest]

def Page.bytes (s : Page) : Bytes := s.fields.flatten

structure Page.Fits (s : Page) : Prop where
  signature : s.signature.length = 4
  usaOffset : s.usaOffset < 2 ^ 16
  usaCount : s.usaCount < 2 ^ 16
  last : s.last < 2 ^ 64
  flags : s.flags < 2 ^ 32
  count : s.count < 2 ^ 16
  position : s.position < 2 ^ 16
  next : s.next < 2 ^ 16
  unused : s.unused.length = 6
  lastEnd : s.lastEnd < 2 ^ 64
  gap : s.gap.length = 20
  fileOffset : s.fileOffset < 2 ^ 32


/-- The header of a log record, with what follows it. -/
structure RecordHeader where
  this : Nat
  previous : Nat
  undoNext : Nat
  length : Nat
  client : Nat
  type : Nat
  transaction : Nat
  flags : Nat
  unused : Bytes
  rest : Bytes

def RecordHeader.fields (s : RecordHeader) : List Bytes :=
  [natLE 8 s.this, natLE 8 s.previous, natLE 8 s.undoNext, natLE 4 s.length, natLE 4 s.client, natLE 4 s.type, natLE 4 s.transaction, natLE 2 s.flags, s.unused, s.rest]

def RecordHeader.bytes (s : RecordHeader) : Bytes := s.fields.flatten

structure RecordHeader.Fits (s : RecordHeader) : Prop where
  this : s.this < 2 ^ 64
  previous : s.previous < 2 ^ 64
  undoNext : s.undoNext < 2 ^ 64
  length : s.length < 2 ^ 32
  client : s.client < 2 ^ 32
  type : s.type < 2 ^ 32
  transaction : s.transaction < 2 ^ 32
  flags : s.flags < 2 ^ 16
  unused : s.unused.length = 6


/-- The restart area of NTFS, as long as it is in the last version. -/
structure NtfsArea where
  major : Nat
  minor : Nat
  checkpoint : Nat
  openAttributes : Nat
  names : Nat
  dirtyPages : Nat
  transactions : Nat
  openAttributesLength : Nat
  namesLength : Nat
  dirtyPagesLength : Nat
  transactionsLength : Nat
  usnStart : Int
  last : Nat
  cluster : Nat
  unused : Bytes
  journal : Nat
  usnBase : Int
  oldest : Nat
  rest : Bytes

def NtfsArea.fields (s : NtfsArea) : List Bytes :=
  [natLE 4 s.major, natLE 4 s.minor, natLE 8 s.checkpoint, natLE 8 s.openAttributes, natLE 8 s.names, natLE 8 s.dirtyPages, natLE 8 s.transactions, natLE 4 s.openAttributesLength, natLE 4 s.namesLength, natLE 4 s.dirtyPagesLength, natLE 4 s.transactionsLength, intLE 8 s.usnStart, natLE 8 s.last, natLE 4 s.cluster, s.unused, natLE 8 s.journal, intLE 8 s.usnBase, natLE 8 s.oldest, s.rest]

def NtfsArea.bytes (s : NtfsArea) : Bytes := s.fields.flatten

structure NtfsArea.Fits (s : NtfsArea) : Prop where
  major : s.major < 2 ^ 32
  minor : s.minor < 2 ^ 32
  checkpoint : s.checkpoint < 2 ^ 64
  openAttributes : s.openAttributes < 2 ^ 64
  names : s.names < 2 ^ 64
  dirtyPages : s.dirtyPages < 2 ^ 64
  transactions : s.transactions < 2 ^ 64
  openAttributesLength : s.openAttributesLength < 2 ^ 32
  namesLength : s.namesLength < 2 ^ 32
  dirtyPagesLength : s.dirtyPagesLength < 2 ^ 32
  transactionsLength : s.transactionsLength < 2 ^ 32
  usnStart : -2 ^ 63 ≤ s.usnStart ∧ s.usnStart < 2 ^ 63
  last : s.last < 2 ^ 64
  cluster : s.cluster < 2 ^ 32
  unused : s.unused.length = 4
  journal : s.journal < 2 ^ 64
  usnBase : -2 ^ 63 ≤ s.usnBase ∧ s.usnBase < 2 ^ 63
  oldest : s.oldest < 2 ^ 64


/-- An entry of the table of open attributes, version 1.0 or later. -/
structure OpenAttribute1 where
  link : Nat
  indexBytes : Nat
  type : Nat
  unused : Bytes
  reference : Nat
  lsn : Nat
  pointer : Bytes
  rest : Bytes

def OpenAttribute1.fields (s : OpenAttribute1) : List Bytes :=
  [natLE 4 s.link, natLE 4 s.indexBytes, natLE 4 s.type, s.unused, natLE 8 s.reference, natLE 8 s.lsn, s.pointer, s.rest]

def OpenAttribute1.bytes (s : OpenAttribute1) : Bytes := s.fields.flatten

structure OpenAttribute1.Fits (s : OpenAttribute1) : Prop where
  link : s.link < 2 ^ 32
  indexBytes : s.indexBytes < 2 ^ 32
  type : s.type < 2 ^ 32
  unused : s.unused.length = 4
  reference : s.reference < 2 ^ 64
  lsn : s.lsn < 2 ^ 64
  pointer : s.pointer.length = 8


/-- An entry of the table of open attributes, version 0.0. -/
structure OpenAttribute0 where
  link : Nat
  tableIndex : Nat
  reference : Nat
  lsn : Nat
  unused : Bytes
  type : Nat
  pointer : Bytes
  indexBytes : Nat
  rest : Bytes

def OpenAttribute0.fields (s : OpenAttribute0) : List Bytes :=
  [natLE 4 s.link, natLE 4 s.tableIndex, natLE 8 s.reference, natLE 8 s.lsn, s.unused, natLE 4 s.type, s.pointer, natLE 4 s.indexBytes, s.rest]

def OpenAttribute0.bytes (s : OpenAttribute0) : Bytes := s.fields.flatten

structure OpenAttribute0.Fits (s : OpenAttribute0) : Prop where
  link : s.link < 2 ^ 32
  tableIndex : s.tableIndex < 2 ^ 32
  reference : s.reference < 2 ^ 64
  lsn : s.lsn < 2 ^ 64
  unused : s.unused.length = 4
  type : s.type < 2 ^ 32
  pointer : s.pointer.length = 8
  indexBytes : s.indexBytes < 2 ^ 32


/-- A client of the log file; its record has 160 bytes, and the name takes at most 128 of them. -/
structure Client where
  oldest : Nat
  restart : Nat
  previous : Nat
  next : Nat
  sequence : Nat
  unused : Bytes
  name : Str
  filler : Bytes

def Client.fields (c : Client) : List Bytes :=
  [natLE 8 c.oldest, natLE 8 c.restart, natLE 2 c.previous, natLE 2 c.next, natLE 2 c.sequence, c.unused, natLE 4 (Utf16.encode c.name).length,
   Utf16.encode c.name, c.filler]

def Client.bytes (c : Client) : Bytes := c.fields.flatten

structure Client.Fits (c : Client) : Prop where
  oldest : c.oldest < 2 ^ 64
  restart : c.restart < 2 ^ 64
  previous : c.previous < 2 ^ 16
  next : c.next < 2 ^ 16
  sequence : c.sequence < 2 ^ 16
  unused : c.unused.length = 6
  name : Utf16.Valid c.name
  size : 32 + (Utf16.encode c.name).length + c.filler.length = 160

/-- The area has these clients in its array, after what is between its fields and the array. -/
def Area.HasClients (a : Area) (clients : List Client) : Prop :=
  a.count = clients.length ∧ ∃ gap more, 44 + gap.length = a.arrayOffset ∧ a.rest = gap ++ ((clients.map Client.bytes).flatten ++ more)

end Verif.Spec.LogFields
