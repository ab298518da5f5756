/-
The table of a file table (used to state C98): the columns of a row, from the attributes of a file record.
-/
import Verif.Spec.Parser
import Verif.Model.Scripts.Tables
namespace Verif.Spec.MftTable
open Verif.MFT Verif.Attributes Verif.Spec.Parser Verif.Scripts

/-- The first column. -/
def source (kind : String) (tag : Option Str) : Cell :=
  .str (match tag with
    | some (c :: t) => Str.ofString kind ++ Str.ofString " (" ++ (c :: t) ++ Str.ofString ")"
    | _ => Str.ofString kind)

/-- The text (C93) of the FILETIME at an offset. -/
def time (b : Bytes) (i : Nat) : Cell := .str (filetimeText (decodeFiletime (leNat (slice b i (i + 8)))))

/-- The M, A, C and E timestamps of a `$FILE_NAME` value. -/
def nameTimes (v : Bytes) : List Cell := [time v 16, time v 32, time v 8, time v 24]
/-- Whether a `$FILE_NAME` value is that of a directory, and the size in it. -/
def nameIsDirectory (v : Bytes) : Bool := (leNat (slice v 56 60)).testBit 28
def nameSize (v : Bytes) : Int := leInt (slice v 48 56)

/-- The value of the first `$STANDARD_INFORMATION`. -/
def standardValue : AttributeRecord → Option Bytes
  | .resident 0x10 _ v => some v
  | _ => none

/-- The size of the unnamed stream: the length of a resident one, or the size in the first extent. -/
def unnamedSize : AttributeRecord → Option Int
  | .resident 0x80 none v => some v.length
  | .nonresident 0x80 none _ 0 _ size _ => some size
  | _ => none

/-- The name of a named stream. -/
def streamName : AttributeRecord → Option Str
  | .resident 0x80 (some n) _ => some (utf16Decode n)
  | .nonresident 0x80 (some n) _ _ _ _ _ => some (utf16Decode n)
  | _ => none

/-- The timestamp in an object ID. -/
def objectTime : AttributeRecord → Option Nat
  | .resident 0x40 _ v => objectIdTimestamp v
  | _ => none

/-- An extended attribute is a valid LXATTRB (C52). -/
def IsLinux (ea : ExtendedAttribute) : Prop :=
  ea.name = [0x4C, 0x58, 0x41, 0x54, 0x54, 0x52, 0x42, 0] ∧ ea.value.length = 56 ∧ leNat (slice ea.value 0 2) = 0 ∧ leNat (slice ea.value 2 4) = 1

instance (ea : ExtendedAttribute) : Decidable (IsLinux ea) := by unfold IsLinux; infer_instance

/-- The M, A and CH timestamps of a valid LXATTRB (C52). -/
def linuxTimesOf (ea : ExtendedAttribute) : Option (Nat × Nat × Nat) :=
  if IsLinux ea then
    match WSL.mtime ea.value, WSL.atime ea.value, WSL.chtime ea.value with
    | .ok m, .ok a, .ok c => some (m, a, c)
    | _, _, _ => none
  else none

/-- Those of the last valid LXATTRB in an EA attribute. -/
def linuxTimes : AttributeRecord → Option (Nat × Nat × Nat)
  | .resident 0xE0 _ v => (eaParsed v).reverse.findSome? linuxTimesOf
  | _ => none

/-- `$STANDARD_INFORMATION`: the M, A, C and E timestamps and the USN (absent from a short value). -/
def standardCells : Option Bytes → List Cell
  | none => List.replicate 5 (.str [])
  | some v => [time v 8, time v 24, time v 0, time v 16, if 72 ≤ v.length then .int (leNat (slice v 64 72)) else .none]

/-- `l` is the list of the names of the streams, in the order of code points and without duplicates. -/
def IsStreamList (attrs : List AttributeRecord) (l : List Str) : Prop :=
  l.Pairwise (· < ·) ∧ ∀ n, n ∈ l ↔ ∃ a ∈ attrs, streamName a = some n

/-- The last six columns. -/
def lastCells (attrs : List AttributeRecord) (streams : List Str) : List Cell :=
  [.str ((attrs.findSome? objectTime).elim [] fun t => formatTimestamp (some (epoch1582 + t))),
   .str ((attrs.findSome? unnamedSize).elim (Str.ofString "?") signedDecimal),
   .str (pyJoin (Str.ofString " ") streams),
   .str ((attrs.findSome? linuxTimes).elim [] fun t => formatTimestamp (some (epoch1970 + t.1))),
   .str ((attrs.findSome? linuxTimes).elim [] fun t => formatTimestamp (some (epoch1970 + t.2.1))),
   .str ((attrs.findSome? linuxTimes).elim [] fun t => formatTimestamp (some (epoch1970 + t.2.2)))]

/-- The row of a file record for one of its paths. -/
def fileRow (tag : Option Str) (r : FileRecord) (number : Nat) (streams : List Str) (path : Str) (times : List Cell) : Row :=
  [source "File record" tag, .int (encodeFileRecordSegmentReference number (sequenceOf r.base)), yesNo ((flagsOf r.base).testBit 0),
   yesNo ((flagsOf r.base).testBit 1), .int (leNat (slice r.base.data 8 16)), .str path] ++
  standardCells (r.attributes.items.findSome? standardValue) ++ times ++ lastCells r.attributes.items streams

/-- The rows of a file record itself: one for each path, or one without a path. -/
def fileBlock (tag : Option Str) (r : FileRecord) (number : Nat) (streams : List Str) (paths : List (Str × Bytes)) : List Row :=
  if paths = [] then [fileRow tag r number streams [] (List.replicate 4 (.str []))]
  else paths.map fun x => fileRow tag r number streams x.1 (nameTimes x.2)

/-- A path in a directory (the root directory has the path `/.`). -/
def inDirectory (directory : Option Str) (name : Str) : Str :=
  match directory with
  | none => Str.ofString "<Unknown>/" ++ name
  | some d => (if d = Str.ofString "/." then [] else d) ++ Str.ofString "/" ++ name

/-- The value of an index of file names. -/
def nameIndex : AttributeRecord → Option Bytes
  | .resident 0x90 _ v => if leNat (slice v 0 4) = 0x30 then some v else none
  | _ => none

/-- The `$FILE_NAME` value in an entry of an index, if it has one (bit 1: the last entry). -/
def entryName (raw : Bytes) : Option Bytes :=
  if (leNat (slice raw 12 14)).testBit 1 = false ∧ 0 < leNat (slice raw 10 12) then some (slice raw 16 (16 + leNat (slice raw 10 12))) else none

/-- The row of an entry of the index in the file record. -/
def indexRow (tag : Option Str) (paths : List (Str × Bytes)) (raw v : Bytes) : Row :=
  [source "Index record" tag, .int (leNat (slice raw 0 8)), .str (Str.ofString "?"), yesNo (nameIsDirectory v), .str [],
   .str (inDirectory (paths.head?.map (·.1)) (nameOf v))] ++ List.replicate 5 (.str []) ++ nameTimes v ++ [.str [], .int (nameSize v)] ++
  List.replicate 4 (.str [])

def indexBlock (tag : Option Str) (r : FileRecord) (paths : List (Str × Bytes)) : List Row :=
  if (flagsOf r.base).testBit 1 then
    match r.attributes.items.findSome? nameIndex with
    | none => []
    | some v => (indexRootEntries v).items.filterMap fun e => (entryName e.raw).map (indexRow tag paths e.raw)
  else []

/-- The first path of the file with this number and this sequence number. -/
def pathBy (p : MFT.Parser) (number sequence : Nat) : Option Str :=
  match p.getRecord number (some sequence) with
  | .error _ => none
  | .ok r =>
    match p.buildFullPaths r with
    | some (.ok (x :: _)) => some x.1
    | _ => none

/-- The first path of the file with this reference: of the record with the number and the sequence number in it. -/
def pathOf (p : MFT.Parser) (reference : Nat) : Option Str := pathBy p (number reference) (sequence reference)

/-- The row of a remnant of a file name in the slack space: a complete one or the end of a name. -/
def slackRow (p : MFT.Parser) (tag : Option Str) : Carved → Row
  | .fileName v =>
    [source "Slack" tag, .str (Str.ofString "?"), .str (Str.ofString "?"), yesNo (nameIsDirectory v), .str [],
     .str (inDirectory (pathOf p (parentOf v)) (nameOf v))] ++ List.replicate 5 (.str []) ++ nameTimes v ++ [.str [], .int (nameSize v)] ++
    List.replicate 4 (.str [])
  | .partialName s =>
    [source "Slack" tag, .str (Str.ofString "?"), .str (Str.ofString "?"), .str (Str.ofString "?"), .str [],
     .str (Str.ofString "<Unknown, likely the same as above>/<Can be partially overwritten or start with a wrong character>" ++ s)] ++
    List.replicate 5 (.str []) ++ List.replicate 4 (.str (Str.ofString "?")) ++ [.str [], .str (Str.ofString "?")] ++ List.replicate 4 (.str [])

def slackBlock (p : MFT.Parser) (tag : Option Str) (r : FileRecord) : List Row :=
  r.slack.items.flatMap fun s => (carve [s] true).map (slackRow p tag)

/-- The names of the columns. -/
def header : Row := ["Source", "MFT reference number", "Is in use", "Is directory", "Log file sequence number", "Path",
  "$SI M timestamp", "$SI A timestamp", "$SI C timestamp", "$SI E timestamp", "$SI USN value",
  "$FN M timestamp", "$FN A timestamp", "$FN C timestamp", "$FN E timestamp", "$OBJID timestamp", "File size", "ADS list",
  "WSL M timestamp", "WSL A timestamp", "WSL CH timestamp"].map fun s => .str (Str.ofString s)

/-- The number of a file record: the one it has, or its place (old versions of NTFS). -/
def HasNumber (file : Bytes) (size : Nat) (r : FileRecord) (n : Nat) : Prop :=
  ∃ k, segmentAt file size k = some r.base ∧ n = if r.base.shortVersion then k else u16 r.base.data 42 * 2 ^ 32 + u32 r.base.data 44

/-- The rows of a file record: none when an exception of the file table is raised for its paths; otherwise those of the record itself, of
the index in it and of the slack space in it. -/
def IsBlock (file : Bytes) (p : MFT.Parser) (tag : Option Str) (r : FileRecord) (rows : List Row) : Prop :=
  (rows = [] ∧ ∃ e, isMftExc e = true ∧ p.buildFullPaths r = some (.error e)) ∨
  ∃ paths n streams, p.buildFullPaths r = some (.ok paths) ∧ HasNumber file p.size r n ∧ IsStreamList r.attributes.items streams ∧
    rows = fileBlock tag r n streams paths ++ indexBlock tag r paths ++ slackBlock p tag r

/-- The first rows of a file record. -/
def BeginsBlock (file : Bytes) (p : MFT.Parser) (tag : Option Str) (r : FileRecord) (rows : List Row) : Prop :=
  rows = [] ∨ ∃ paths n streams, p.buildFullPaths r = some (.ok paths) ∧ HasNumber file p.size r n ∧ IsStreamList r.attributes.items streams ∧
    rows <+: fileBlock tag r n streams paths ++ indexBlock tag r paths ++ slackBlock p tag r

/-- A file record from which a row can be made: the attributes are readable; the fields that are shown are there; timestamps of Linux can
be represented; the entries of the index in it are complete. -/
structure Tabular (r : FileRecord) : Prop where
  readable : Readable r
  standard : ∀ v, r.attributes.items.findSome? standardValue = some v → 32 ≤ v.length
  linux : ∀ n v, .resident 0xE0 n v ∈ r.attributes.items → ∀ ea ∈ eaParsed v, IsLinux ea → linuxTimesOf ea ≠ none
  roots : (flagsOf r.base).testBit 1 = true → ∀ n v, .resident 0x90 n v ∈ r.attributes.items → 4 ≤ v.length
  entries : (flagsOf r.base).testBit 1 = true → ∀ v, r.attributes.items.findSome? nameIndex = some v → (indexRootEntries v).err = none ∧
    ∀ e ∈ (indexRootEntries v).items, 16 ≤ e.raw.length ∧ ∀ a, entryName e.raw = some a → 66 ≤ a.length

end Verif.Spec.MftTable
