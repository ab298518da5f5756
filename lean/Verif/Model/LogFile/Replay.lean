/-
Model of dfir_ntfs/LogFile.py:1168-1252 and 1321-1397: repairs of the log file in memory, and the parsing of
the NTFS records.

The file objects are their contents.  Positions are not modelled: every read and write seeks first.
Python raises MemoryError when a write is too far from the end of the file in memory; here memory is
unlimited.
-/
import Verif.Model.LogFile.Lsns
namespace Verif.LogFile

/-- dfir_ntfs/LogFile.py:651-652, 1168-1191: The contents of the original file object, and those of the writable one in memory, if there is one
(`self.writable`). -/
structure State where
  original : Bytes
  overlay : Option Bytes
  deriving DecidableEq

/-- dfir_ntfs/LogFile.py:651-652, 1168-1191: What `self.file_object` contains. -/
def State.current (s : State) : Bytes := s.overlay.getD s.original

/-- dfir_ntfs/LogFile.py:1168-1181 `prepare_for_writes`. -/
def State.prepare (s : State) : State :=
  match s.overlay with
  | some _ => s
  | none => { s with overlay := some s.original }

/-- dfir_ntfs/LogFile.py:1183-1191 `discard_changes`. -/
def State.discard (s : State) : State :=
  match s.overlay with
  | none => s
  | some _ => { s with overlay := none }

/-- dfir_ntfs/LogFile.py:1193-1252 (`file_object.seek` and `write`): The contents after writing `data` at the offset: a gap is filled with zeros. -/
def writeAt (b : Bytes) (offset : Nat) (data : Bytes) : Bytes :=
  b.take offset ++ (zeros (offset - b.length) ++ (data ++ b.drop (offset + data.length)))

/-- `self.file_object.seek(offset); self.file_object.write(data)`: ValueError for a negative offset,
OverflowError beyond 2^63.  Without `prepare_for_writes` the original file object is written to. -/
def State.write (s : State) (offset : Int) (data : Bytes) : Except Exc State :=
  if offset < 0 then .error .ValueError
  else if offset.toNat + data.length ≥ 2 ^ 63 then .error .OverflowError
  else
    match s.overlay with
    | some b => .ok { s with overlay := some (writeAt b offset.toNat data) }
    | none => .ok { s with original := writeAt s.original offset.toNat data }

/-- dfir_ntfs/LogFile.py:1202-1215: the choice between the copies of the tail page. -/
def chooseTailPage (page1 page2 : Option LogRecordPage) : Option LogRecordPage :=
  match page1, page2 with
  | none, none => none
  | none, some b => some b
  | some a, none => some a
  | some a, some b => if a.lastEndLsn > b.lastEndLsn then some a else some b

/-- dfir_ntfs/LogFile.py:1193-1221 `apply_tail_page`. -/
def Parser.applyTailPage (p : Parser) (s : State) : Except Exc State :=
  if p.logVersion ≠ (1, 1) then .error .RuntimeError                                      -- 1196
  else
    match p.getPage s.current 2 with
    | .error e => .error e
    | .ok page1 =>
      match p.getPage s.current 3 with
      | .error e => .error e
      | .ok page2 =>
        match chooseTailPage page1 page2 with
        | none => .ok s
        | some page => s.write page.fileOffset11 page.bufProtected                        -- 1217-1221

/-- dfir_ntfs/LogFile.py:1230-1233: the highest LSN. -/
def highestLsn (pages : List LogRecordPage) : Nat :=
  pages.foldl (fun h page => if page.lastLsn > h then page.lastLsn else h) 0

/-- dfir_ntfs/LogFile.py:1235-1243: the fast pages to apply, before they are sorted: `n` pages are left. -/
def Parser.fastPagesLoop (p : Parser) (file : Bytes) (highest : Nat) : Nat → Nat → Except Exc (List LogRecordPage)
  | 0, _ => .ok []
  | n + 1, i =>
    match p.getPage file i with
    | .error e => .error e
    | .ok page =>
      match p.fastPagesLoop file highest n (i + 1) with
      | .error e => .error e
      | .ok rest =>
        match page with
        | none => .ok rest
        | some page => if page.lastLsn > highest then .ok (page :: rest) else .ok rest

/-- dfir_ntfs/LogFile.py:1247-1252: write the pages; `seek(None)` raises TypeError.  The state is kept when
a write fails. -/
def applyPages : List LogRecordPage → State → State × Option Exc
  | [], s => (s, none)
  | page :: rest, s =>
    match page.fileOffset2x with
    | none => (s, some .TypeError)
    | some offset =>
      match s.write offset page.bufProtected with
      | .error e => (s, some e)
      | .ok s => applyPages rest s

/-- dfir_ntfs/LogFile.py:1223-1252 `apply_fast_pages`. -/
def Parser.applyFastPages (p : Parser) (s : State) : State × Option Exc :=
  if p.logVersion.1 < 2 then (s, some .RuntimeError)                                      -- 1226
  else
    match p.infinitePages s.current with
    | .error e => (s, some e)
    | .ok pages =>
      match p.fastPagesLoop s.current (highestLsn pages) 32 2 with
      | .error e => (s, some e)
      | .ok fast => applyPages (sortBy (fun page => (page.lastLsn : Int)) fast) s          -- 1245

/-- dfir_ntfs/LogFile.py:1326-1332: the beginning of `parse_ntfs_records(True)`. -/
def Parser.repair (p : Parser) (s : State) : State × Option Exc :=
  let s := s.prepare
  if p.logVersion = (1, 1) then
    match p.applyTailPage s with
    | .ok s => (s, none)
    | .error e => (s, some e)
  else if p.logVersion.1 ≥ 2 then p.applyFastPages s
  else (s, none)

/-! ### NTFS records -/

/-- dfir_ntfs/LogFile.py:1725-1746 and 1321-1397: An entry of the open attribute table: the index, the file reference and the name. -/
abbrev OatEntry := Nat × Nat × Str

/-- dfir_ntfs/LogFile.py:1321-1397: What `parse_ntfs_records` yields: the decoded record and what is attached to it. -/
structure Item where
  decoded : Decoded
  oat : List OatEntry
  oatDump : Option Bytes
  anDump : Option Bytes
  deriving DecidableEq

/-- The local variables of the loop (dfir_ntfs/LogFile.py:1338-1346). -/
structure Tables where
  latestOat : Option Bytes := none
  oldOat : Option Bytes := none
  latestAn : Option Bytes := none
  oldAn : Option Bytes := none
  oatCount : Nat := 0
  anCount : Nat := 0
  oat : List OatEntry := []
  deriving DecidableEq

/-- dfir_ntfs/LogFile.py:1321-1397: `oat[index] = entry`: a dictionary as a list of its entries. -/
def oatSet (oat : List OatEntry) (index reference : Nat) (name : Str) : List OatEntry :=
  (index, reference, name) :: oat.filter (·.1 ≠ index)

/-- dfir_ntfs/LogFile.py:1356-1380: the effect of a log record on the tables (`OpenNonresidentAttribute =
0x1C`, `OpenAttributeTableDump = 0x1D`, `AttributeNamesDump = 0x1E`).  Reading `self.use_dumps` before it is
set raises AttributeError. -/
def Tables.update (t : Tables) (config : Config) (buf : Bytes) : Except Exc Tables :=
  if redoOperation buf = 0x1C then
    match undoData buf with                                                               -- 1358
    | .error e => .error e
    | .ok name =>
      match redoData buf with                                                             -- 1361
      | .error e => .error e
      | .ok entry =>
        match openAttributeReference config.oatVersion entry with                         -- 1363-1371
        | .error _ => .ok { t with oat := [] }
        | .ok reference => .ok { t with oat := oatSet t.oat (targetAttribute buf) reference (utf16Decode name) }
  else
    match config.useDumps with
    | none => .error .AttributeError
    | some useDumps =>
      if useDumps ∧ redoOperation buf = 0x1D then
        match redoData buf with
        | .error e => .error e
        | .ok dump => .ok { t with oldOat := t.latestOat, latestOat := some dump, oatCount := t.oatCount + 1 }
      else if useDumps ∧ redoOperation buf = 0x1E then
        match redoData buf with
        | .error e => .error e
        | .ok dump => .ok { t with oldAn := t.latestAn, latestAn := some dump, anCount := t.anCount + 1 }
      else .ok t

/-- dfir_ntfs/LogFile.py:1382-1392: what is attached to a log record. -/
def Tables.attach (t : Tables) (config : Config) (decoded : Decoded) : Except Exc Item :=
  match config.useDumps with
  | none => .error .AttributeError
  | some useDumps =>
    if useDumps ∧ t.oatCount > 0 ∧ t.oatCount = t.anCount then .ok ⟨decoded, t.oat, t.latestOat, t.latestAn⟩
    else if useDumps ∧ t.oatCount > 0 ∧ t.oatCount ≠ t.anCount then .ok ⟨decoded, t.oat, t.oldOat, t.oldAn⟩
    else .ok ⟨decoded, t.oat, none, none⟩

/-- dfir_ntfs/LogFile.py:1348-1394, the loop over the LSNs of a client. -/
def Parser.parseClient (p : Parser) (file : Bytes) (fuel : Nat) (config : Config) : List Nat → Tables → Option (Gen Item)
  | [], _ => some .done
  | lsn :: rest, t =>
    match p.getClientData file fuel lsn with
    | none => none
    | some (.error e) => some (.fail e)
    | some (.ok data) =>
      match data.decoded with
      | .error .NotImplementedError => p.parseClient file fuel config rest t              -- 1352
      | .error e => some (.fail e)
      | .ok (.restartArea buf lsn) =>                                                     -- 1394
        (p.parseClient file fuel config rest t).map (.cons ⟨.restartArea buf lsn, [], none, none⟩)
      | .ok (.logRecord buf lsn tid) =>
        match t.update config buf with
        | .error e => some (.fail e)
        | .ok t =>
          match t.attach config (.logRecord buf lsn tid) with
          | .error e => some (.fail e)
          | .ok item => (p.parseClient file fuel config rest t).map (.cons item)

/-- dfir_ntfs/LogFile.py:1337-1394, the loop over the clients. -/
def Parser.parseClients (p : Parser) (file : Bytes) (fuel : Nat) (config : Config) : List (Nat × List Nat) → Option (Gen Item)
  | [] => some .done
  | g :: rest =>
    match p.parseClient file fuel config g.2 {} with
    | none => none
    | some a =>
      match p.parseClients file fuel config rest with
      | none => none
      | some b => some (a.append b)

/-- dfir_ntfs/LogFile.py:1334-1394: the records of the current file. -/
def Parser.parseCurrent (p : Parser) (file : Bytes) (order : List Nat → List Nat) (fuel : Nat) (config : Config) :
    Option (Gen Item) :=
  match p.collectLsns file order fuel config with
  | none => none
  | some (.error e) => some (.fail e)
  | some (.ok (config, lsns)) =>
    match p.sortLsns file lsns with
    | .error e => some (.fail e)
    | .ok groups => p.parseClients file fuel config groups

/-- dfir_ntfs/LogFile.py:1321-1397 `parse_ntfs_records`, iterated to its end: what it yields and the state
afterwards (an exception skips `discard_changes`). -/
def Parser.parseRecords (p : Parser) (s : State) (order : List Nat → List Nat) (fuel : Nat) (config : Config) (recover : Bool) :
    Option (Gen Item × State) :=
  if recover then
    match p.repair s with
    | (s, some e) => some (.fail e, s)
    | (s, none) =>
      match p.parseCurrent s.current order fuel config with
      | none => none
      | some g => some (g, if g.err = none then s.discard else s)
  else
    match p.parseCurrent s.current order fuel config with
    | none => none
    | some g => some (g, s)

end Verif.LogFile
