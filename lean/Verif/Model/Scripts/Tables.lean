/-
Model of the tables that the program `ntfs_parser` writes as CSV: `--mft` and `--all-mft`, `--usn` and
`--indx`.  The result of a function is the rows that are written, in order, and the exception that ends
the program, if any (the rows written before it remain in the file).
-/
import Verif.Model.Scripts.Text
import Verif.Model.AttributeFields
import Verif.Model.MFT.Parser
import Verif.Model.MFT.SlackSpace
import Verif.Model.USN
import Verif.Model.WSL
import Verif.Model.MFT.FileSystem
namespace Verif.Scripts
open Verif.MFT Verif.Attributes

/-! ### Control flow -/

/-- `for x in l: …` (ntfs_parser:88 and others), where an exception ends the program. -/
def forEach {α β : Type} (f : α → Gen β) : List α → Gen β
  | [] => .done
  | x :: l => (f x).append (forEach f l)

/-- `for x in g: …` for a generator (ntfs_parser:88 and others): its exception is raised after the bodies of its items. -/
def forGen {α β : Type} (f : α → Gen β) (g : Gen α) : Gen β := (forEach f g.items).append ⟨[], g.err⟩

/-- `x = …; …` (ntfs_parser:162 and others): an exception ends the program. -/
def andThen {α β : Type} (x : Except Exc α) (f : α → Gen β) : Gen β :=
  match x with
  | .error e => .fail e
  | .ok a => f a

/-! ### Paths -/

/-- `mft.build_full_paths(file_record, True)` (ntfs_parser:93).  The model of this method has a bound that is never reached
(C18), so the exception given here for that case is never raised. -/
def fullPaths (p : Parser) (r : FileRecord) : Except Exc (List (Str × Bytes)) :=
  match p.buildFullPaths r with
  | some x => x
  | none => .error .RuntimeError

/-- ntfs_parser:318-327 (also 256-265): the first path of the file with this number and sequence number, `none` when there is none. -/
def lookupPath (p : Parser) (number : Nat) (sequence : Option Nat) : Except Exc (Option Str) :=
  match p.getRecord number sequence with                                                      -- 319
  | .error e => if isMftExc e then .ok none else .error e                                     -- 321-322
  | .ok r =>
    match fullPaths p r with                                                                  -- 320
    | .error e => if isMftExc e then .ok none else .error e
    | .ok [] => .ok none                                                                      -- 327
    | .ok (x :: _) => .ok (some x.1)                                                          -- 325

/-- `'/.'` (ntfs_parser:223). -/
def rootPath : Str := Str.ofString "/."

/-- ntfs_parser:221-228 (also 267-273): the path of a name in a directory. -/
def pathIn (directory : Option Str) (name : Str) : Str :=
  match directory with
  | some d => pyJoin pathSeparator [if d = rootPath then [] else d, name]
  | none => pyJoin pathSeparator [Str.ofString "<Unknown>", name]

/-! ### Columns -/

/-- A FILETIME as text (ntfs_parser:162 and others). -/
def filetimeText (t : Option Nat) : Str := formatTimestamp (t.map (epoch1601 + ·))

/-- The text 'Y' or 'N' (ntfs_parser:176-184 and others). -/
def yesNo (b : Bool) : Cell := .str (if b then Str.ofString "Y" else Str.ofString "N")

/-- A constant text (ntfs_parser:85 and others). -/
def text (s : String) : Cell := .str (Str.ofString s)

/-- ntfs_parser:190-193 (also 237-240 and 280-283): the texts of the M, A, C and E timestamps of a `$FILE_NAME` value. -/
def fileNameTimes (v : Bytes) : Except Exc (List Cell) := do
  let di := fileNameInformation v
  let m ← diMtime di
  let a ← diAtime di
  let c ← diCtime di
  let e ← diEtime di
  return [.str (filetimeText m), .str (filetimeText a), .str (filetimeText c), .str (filetimeText e)]

/-- ntfs_parser:232-235 (also 275-278): whether a `$FILE_NAME` value is that of a directory. -/
def fileNameIsDirectory (v : Bytes) : Except Exc Bool :=
  (diFileAttributes (fileNameInformation v)).map fun a => decide (a &&& 0x10000000 > 0)

/-! ### `--mft` -/

/-- ntfs_parser:97-105: what the loop over the attributes collects. -/
structure Collected where
  standardInformation : Option Bytes
  fileSize : Option Int
  streams : List Str
  objectTime : Option Nat
  /-- The M, A and CH timestamps, once they have been found (`wsl_found`). -/
  wsl : Option (Nat × Nat × Nat)
  deriving DecidableEq, Repr

/-- ntfs_parser:97-105: the state before the loop. -/
def Collected.start : Collected := ⟨none, none, [], none, none⟩

/-- ntfs_parser:121-132: the loop over extended attributes.  (`wsl_found` is not tested in it: a later LXATTRB replaces an
earlier one.) -/
def collectWsl : List ExtendedAttribute → Option (Nat × Nat × Nat) → Except Exc (Option (Nat × Nat × Nat))
  | [], found => .ok found
  | ea :: rest, found =>
    if ea.name = [0x4C, 0x58, 0x41, 0x54, 0x54, 0x52, 0x42, 0] then                           -- 122
      match WSL.lxattrb ea.value with                                                         -- 124
      | .error .ValueError => collectWsl rest found                                           -- 125-126
      | .error e => .error e
      | .ok v => do
        let a ← WSL.atime v                                                                   -- 130
        let m ← WSL.mtime v                                                                   -- 131
        let ch ← WSL.chtime v                                                                 -- 132
        collectWsl rest (some (m, a, ch))
    else collectWsl rest found

/-- ntfs_parser:107-146: the loop over the attributes; `err` is the exception that ends it. -/
def collect (err : Option Exc) : List AttributeRecord → Collected → Except Exc Collected
  | [], c =>
    match err with
    | some e => .error e
    | none => .ok c
  | .resident t name v :: rest, c =>
    if t = 0xA0 then .error .AttributeError                                                   -- 109
    else do
      let c := if t = 0x10 ∧ c.standardInformation = none then { c with standardInformation := some v } else c   -- 111-113
      let c := if t = 0x40 ∧ c.objectTime = none then { c with objectTime := objectIdTimestamp v } else c        -- 115-117
      let wsl ← if t = 0xE0 ∧ c.wsl = none then collectWsl (eaParsed v) none else .ok c.wsl                      -- 119-132
      let c := { c with wsl := wsl }
      let c := if t = 0x80 ∧ name = none ∧ c.fileSize = none then { c with fileSize := some v.length } else c    -- 134-136
      let c := match (AttributeRecord.resident t name v).name with                                                -- 138-139
        | some n => if t = 0x80 then { c with streams := n :: c.streams } else c
        | none => c
      collect err rest c
  | .nonresident t name mp lo hi size runs :: rest, c =>
    let c := if t = 0x80 ∧ name = none ∧ lo = 0 ∧ c.fileSize = none then { c with fileSize := some size } else c  -- 141-143
    let c := match (AttributeRecord.nonresident t name mp lo hi size runs).name with                              -- 145-146
      | some n => if t = 0x80 then { c with streams := n :: c.streams } else c
      | none => c
    collect err rest c

/-- Python's order of strings: by code points (`sorted`, ntfs_parser:152). -/
def strLt : Str → Str → Bool
  | _, [] => false
  | [], _ :: _ => true
  | a :: s, b :: t => if a = b then strLt s t else decide (a < b)

/-- A step of `sorted` of a set (ntfs_parser:152): insertion of a string into a sorted list without duplicates. -/
def insertStr (s : Str) : List Str → List Str
  | [] => [s]
  | t :: l => if s = t then t :: l else if strLt s t then s :: t :: l else t :: insertStr s l

/-- `sorted(ads_set)` (ntfs_parser:99, 139, 146, 152). -/
def sortedSet (l : List Str) : List Str := l.foldr insertStr []

/-- ntfs_parser:156-159: the text of an object ID timestamp. -/
def objectTimeText (t : Option Nat) : Str :=
  match t with
  | none => []
  | some t => formatTimestamp (some (epoch1582 + t))

/-- ntfs_parser:103-105, 130-132: the text of a WSL timestamp. -/
def wslText (t : Option Nat) : Str :=
  match t with
  | none => []
  | some t => formatTimestamp (some (epoch1970 + t))

/-- ntfs_parser:161-172: the columns of `$STANDARD_INFORMATION`. -/
def standardColumns (c : Collected) : Except Exc (List Cell) :=
  match c.standardInformation with
  | none => .ok (List.replicate 5 (text ""))                                                  -- 168-172
  | some v => do
    let m ← siMtime v
    let a ← siAtime v
    let cr ← siCtime v
    let e ← siEtime v
    let usn := match siUsn v with
      | some n => Cell.int n
      | none => Cell.none
    return [.str (filetimeText m), .str (filetimeText a), .str (filetimeText cr), .str (filetimeText e), usn]

/-- ntfs_parser:148-159 (the last six columns of a row): object ID timestamp, size, streams and WSL timestamps. -/
def lastColumns (c : Collected) : List Cell :=
  [.str (objectTimeText c.objectTime), .str (match c.fileSize with | some n => signedDecimal n | none => Str.ofString "?"),
   .str (pyJoin (Str.ofString " ") (sortedSet c.streams)),
   .str (wslText (c.wsl.map (·.1))), .str (wslText (c.wsl.map (·.2.1))), .str (wslText (c.wsl.map (·.2.2)))]

/-- ntfs_parser:186: the number of a record; `EncodeFileRecordSegmentReference(None, …)` raises TypeError. -/
def recordReference (r : FileRecord) : Except Exc Nat :=
  match r.base.masterFileTableNumber with
  | none => .error .TypeError
  | some n => .ok (encodeFileRecordSegmentReference n r.base.sequenceNumber)

/-- ntfs_parser:174-197: the rows of a file record itself. -/
def fileRows (tag : Option Str) (r : FileRecord) (paths : List (Str × Bytes)) (c : Collected) : Gen Row :=
  andThen (standardColumns c) fun si =>
  andThen (recordReference r) fun reference =>
    let first : Row := [.str (formatSource (Str.ofString "File record") tag), .int reference, yesNo r.base.isInUse, yesNo r.isDirectory,
      .int r.base.logfileSequenceNumber]
    if paths.length > 0 then
      forEach (fun (x : Str × Bytes) => andThen (fileNameTimes x.2) fun fn =>
        .cons (first ++ [.str x.1] ++ si ++ fn ++ lastColumns c) .done) paths
    else .cons (first ++ [text ""] ++ si ++ List.replicate 4 (text "") ++ lastColumns c) .done

/-- ntfs_parser:204-211: the `$INDEX_ROOT` of a file name index. -/
def findIndexRoot (err : Option Exc) : List AttributeRecord → Except Exc (Option Bytes)
  | [] =>
    match err with
    | some e => .error e
    | none => .ok none
  | .nonresident _ _ _ _ _ _ _ :: rest => findIndexRoot err rest
  | .resident t _ v :: rest =>
    if t = 0xA0 then .error .AttributeError
    else if t = 0x90 then
      match indexRootType v with                                                              -- 209
      | .error e => .error e
      | .ok 0x30 => .ok (some v)
      | .ok _ => findIndexRoot err rest
    else findIndexRoot err rest

/-- ntfs_parser:215-244: the row of an entry of the index in a file record, if it has one. -/
def indexRows (tag : Option Str) (paths : List (Str × Bytes)) (e : IndexEntry) : Gen Row :=
  andThen e.attribute fun a =>
    match a with
    | none => .done                                                                           -- 217
    | some v =>
      andThen (fileNameName v) fun name =>
      andThen e.fileReference fun reference =>                                                -- 230
      andThen (fileNameIsDirectory v) fun dir =>
      andThen (fileNameTimes v) fun fn =>
      andThen (diFileSize (fileNameInformation v)) fun size =>
        .cons ([.str (formatSource (Str.ofString "Index record") tag), .int reference, text "?", yesNo dir, text "",
          .str (pathIn (paths.head?.map (·.1)) name)] ++ List.replicate 5 (text "") ++ fn ++
          [text "", .int size] ++ List.replicate 4 (text "")) .done

/-- ntfs_parser:250-292: the row of an item found in the slack space of a file record. -/
def slackRows (p : Parser) (tag : Option Str) : Carved → Gen Row
  | .fileName v =>
    andThen (fileNameParent v) fun parent =>
      let d := decodeFileRecordSegmentReference parent
      andThen (lookupPath p d.1 (some d.2)) fun directory =>
      andThen (fileNameName v) fun name =>
      andThen (fileNameIsDirectory v) fun dir =>
      andThen (fileNameTimes v) fun fn =>
      andThen (diFileSize (fileNameInformation v)) fun size =>
        .cons ([.str (formatSource (Str.ofString "Slack") tag), text "?", text "?", yesNo dir, text "", .str (pathIn directory name)] ++
          List.replicate 5 (text "") ++ fn ++ [text "", .int size] ++ List.replicate 4 (text "")) .done
  | .partialName s =>
    .cons ([.str (formatSource (Str.ofString "Slack") tag), text "?", text "?", text "?", text "",
      .str (pyJoin pathSeparator [Str.ofString "<Unknown, likely the same as above>",
        Str.ofString "<Can be partially overwritten or start with a wrong character>" ++ s])] ++
      List.replicate 5 (text "") ++ List.replicate 4 (text "?") ++ [text "", text "?"] ++ List.replicate 4 (text "")) .done

/-- ntfs_parser:90-292: the rows for one file record. -/
def recordRows (p : Parser) (tag : Option Str) (r : FileRecord) : Gen Row :=
  match fullPaths p r with                                                                    -- 93
  | .error e => if isMftExc e then .done else .fail e                                         -- 94-95
  | .ok paths =>
    andThen (collect r.attributes.err r.attributes.items .start) fun c =>
      ((fileRows tag r paths c).append
        (if r.isDirectory then                                                                -- 203
          andThen (findIndexRoot r.attributes.err r.attributes.items) fun root =>
            match root with
            | none => .done
            | some v => forGen (indexRows tag paths) (indexRootEntries v)
        else .done)).append
      (forGen (fun slack => forEach (slackRows p tag) (carve [slack] true)) r.slack)          -- 248-249

/-- ntfs_parser:85: the header of the table. -/
def mftHeader : Row := ["Source", "MFT reference number", "Is in use", "Is directory", "Log file sequence number", "Path",
  "$SI M timestamp", "$SI A timestamp", "$SI C timestamp", "$SI E timestamp", "$SI USN value", "$FN M timestamp", "$FN A timestamp",
  "$FN C timestamp", "$FN E timestamp", "$OBJID timestamp", "File size", "ADS list", "WSL M timestamp", "WSL A timestamp",
  "WSL CH timestamp"].map text

/-- ntfs_parser:79-292 `process_mft`; `printHeader` is the global variable. -/
def processMft (file : Bytes) (tag : Option Str) (printHeader : Bool) : Gen Row :=
  andThen (Parser.init file) fun p =>                                                         -- 82
    let rows := forGen (recordRows p tag) p.fileRecords                                       -- 88
    if printHeader then .cons mftHeader rows else rows                                        -- 84-86

/-! ### `--usn` -/

/-- ntfs_parser:303-329: the row of a record of the journal. -/
def usnRow (p : Parser) (r : USN.Record) : Except Exc Row := do
  let usn ← r.usn
  let source ← r.sourceInfo
  let reason ← r.reason
  let reference ← r.fileReference
  let parent ← r.parentReference
  let (timestamp, name) ← match r with                                                        -- 309-314
    | .v2or3 _ _ => do
      let t ← r.timestamp
      let n ← r.fileName
      pure (filetimeText t, n)
    | .v4 _ => pure ([], [])
  let d := decodeFileRecordSegmentReference reference                                         -- 316
  let path ← lookupPath p d.1 (some d.2)                                                      -- 318-327
  return [.int usn, .str (USN.resolveSourceCodes source), .str (USN.resolveReasonCodes reason), .int reference, .int parent,
    .str timestamp, .str name, .str (path.getD [])]

/-- ntfs_parser:300: the header of the table. -/
def usnHeader : Row := ["USN value", "Source", "Reason", "MFT reference number", "Parent MFT reference number", "Timestamp", "File name",
  "File path (from $MFT)"].map text

/-- ntfs_parser:294-329 `process_usn`, for the journal and the file table. -/
def processUsn (journal mft : Bytes) : Option (Gen Row) :=
  match USN.usnRecords journal with
  | none => none
  | some records => some <|
    andThen (Parser.init mft) fun p =>                                                        -- 298
      .cons usnHeader (forGen (fun x => andThen (usnRow p x.2) fun row => .cons row .done) records)

end Verif.Scripts
